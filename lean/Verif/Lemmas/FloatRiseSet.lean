import Verif.Lemmas.FloatTransit
import Verif.Lemmas.Altitude

/-!
# One pass of the loop of `_riseset` in binary64
-/

namespace Verif
open Real

theorem Near.divA {a b : ℚ} {x y e f m M : ℝ} (ha : Near a x e) (hb : Near b y f) (hm : 0 < m) (hbm : m ≤ |(b : ℝ)|)
    (hy : y ≠ 0) (hM : |x / y| ≤ M) : Near (a / b) (x / y) ((e + M * f) / m) := by
  have b0 : (b : ℝ) ≠ 0 := abs_pos.mp (hm.trans_le hbm)
  have M0 : 0 ≤ M := (abs_nonneg _).trans hM
  unfold Near at *
  push_cast
  have key : (a : ℝ) / b - x / y = ((a - x) - x / y * (b - y)) / b := by field_simp; ring
  rw [key, abs_div]
  have : |(a : ℝ) - x - x / y * (b - y)| ≤ e + M * f := by
    refine (abs_sub _ _).trans (add_le_add ha ?_)
    rw [abs_mul]
    exact mul_le_mul hM hb (abs_nonneg _) M0
  exact div_le_div₀ ((abs_nonneg _).trans this) this hm hbm

/-- The altitude as computed. -/
theorem altitudeF_near {fl : ℚ → ℚ} (hf : FloatLike fl) {lib : TrigLib} {N : ℕ} (hl : lib.Good fl N) (phi H d : ℚ) :
    (1e-7 ≤ cos (altitude phi H d) → ∃ h, (equToHorizF fl lib phi H d).2 = some h ∧
      |(h : ℝ) - altitude phi H d| ≤ 1.7e-14 / cos (altitude phi H d)) ∧
    ∀ h, (equToHorizF fl lib phi H d).2 = some h → |sin (h : ℝ) - sin (altitude phi H d)| ≤ 6e-15 := by
  obtain ⟨r1, r2⟩ := prod1_near hf (hl.num.sin phi) (hl.num.sin d) (abs_sin_le_one _) (abs_sin_le_one _)
  obtain ⟨s1, s2⟩ := prod3_near hf (hl.num.cos phi) (hl.num.cos d) (hl.num.cos H) (abs_cos_le_one _)
    (abs_cos_le_one _) (abs_cos_le_one _)
  have zr := horizon_z_range phi H d
  have zb := abs_le.mpr zr
  have nZ := sumZ_near hf r1 s1 r2 s2 zb
  rw [sin_altitude, altitude_eq]
  unfold equToHorizF
  simp only
  generalize hZ : sin (phi : ℝ) * sin (d : ℝ) + cos (phi : ℝ) * cos (d : ℝ) * cos (H : ℝ) = Z at *
  obtain ⟨X, x1, x2⟩ := exists_rat_btwn (show cos (arcsin Z) < cos (arcsin Z) + 1e-15 by norm_num)
  have nX : Near X (cos (arcsin Z)) 1e-15 := by
    unfold Near; rw [abs_le]; norm_num at x2 ⊢; constructor <;> linarith
  have h1 : (1 * cos (arcsin Z)) ^ 2 + (1 * (0 : ℚ) : ℝ) ^ 2 + Z ^ 2 = 1 := by
    rw [Real.cos_arcsin, one_mul, Real.sq_sqrt (by nlinarith [zr.1, zr.2])]
    push_cast; ring
  obtain ⟨-, m2, m3⟩ := dir_near hl (k := 1) one_pos h1 nX (near_self 0) nZ (by norm_num)
  exact ⟨m2, m3⟩

/-- Interpolated declination. -/
theorem interpolate3F_near {fl : ℚ → ℚ} (hf : FloatLike fl) {d : ℚ × ℚ × ℚ} {n : ℚ} (hs : Slow 0.2 0.1 (castT d))
    (hd : |(d.2.1 : ℝ)| ≤ 2) (hn : -1 < n ∧ n < 1) :
    ∃ R, interpolate3 fl n d.1 d.2.1 d.2.2 = .ok R ∧ Near R (parabola (castT d) n) 1e-15 := by
  obtain ⟨s1, s2, s3⟩ := hs
  unfold castT at *
  simp only at *
  unfold interpolate3
  rw [if_neg (by tauto)]
  simp only
  have A := ((near_self d.2.1).sub (near_self d.1)).rnd hf s1 (e' := 3e-17) (by rw [uuR, wwR]; norm_num)
  have B := ((near_self d.2.2).sub (near_self d.2.1)).rnd hf s2 (e' := 3e-17) (by rw [uuR, wwR]; norm_num)
  generalize fl (d.2.1 - d.1) = a at *
  generalize fl (d.2.2 - d.2.1) = b at *
  have s3' : |(d.2.2 : ℝ) - d.2.1 - (d.2.1 - d.1)| ≤ 0.1 := by
    rw [show (d.2.2 : ℝ) - d.2.1 - (d.2.1 - d.1) = d.2.2 - 2 * d.2.1 + d.1 by ring]; exact s3
  have C := (B.sub A).rnd hf s3' (e' := 8e-17) (by rw [uuR, wwR]; norm_num)
  generalize fl (b - a) = c at *
  have hn' : |(n : ℝ)| ≤ 1 := by
    rw [abs_le]
    have h1 : (-1 : ℝ) < n := by exact_mod_cast hn.1
    have h2 : (n : ℝ) < 1 := by exact_mod_cast hn.2
    exact ⟨h1.le, h2.le⟩
  have bAB : |(d.2.1 : ℝ) - d.1 + (d.2.2 - d.2.1)| ≤ 0.4 := (abs_add_le _ _).trans ((add_le_add s1 s2).trans (by norm_num))
  have nAB := (A.add B).rnd hf bAB (e' := 1.1e-16) (by rw [uuR, wwR]; norm_num)
  have bNC : |(n : ℝ) * (d.2.2 - d.2.1 - (d.2.1 - d.1))| ≤ 0.1 := by
    rw [abs_mul]; exact (mul_le_mul hn' s3' (abs_nonneg _) (by norm_num)).trans (by norm_num)
  have nNC := ((near_self n).mul C hn' s3').rnd hf bNC (e' := 1e-16) (by rw [uuR, wwR]; norm_num)
  have bS := (abs_add_le _ _).trans (add_le_add bAB bNC)
  have nS := (nAB.add nNC).rnd hf bS (e' := 2.8e-16) (by rw [uuR, wwR]; norm_num)
  have bN : |(n : ℝ) / (2 : ℚ)| ≤ 0.5 := by
    push_cast; rw [abs_div, abs_of_pos (by norm_num : (0 : ℝ) < 2)]; norm_num; linarith
  have nN := ((near_self n).div_const (k := 2) (by norm_num)).rnd hf bN (e' := 1e-16) (by rw [uuR, wwR]; norm_num)
  have bP : |(n : ℝ) / (2 : ℚ) * (d.2.1 - d.1 + (d.2.2 - d.2.1) + n * (d.2.2 - d.2.1 - (d.2.1 - d.1)))| ≤ 0.26 := by
    rw [abs_mul]; exact (mul_le_mul bN bS (abs_nonneg _) (by norm_num)).trans (by norm_num)
  have nP := (nN.mul nS bN bS).rnd hf bP (e' := 2.5e-16) (by rw [uuR, wwR]; norm_num)
  have nR := ((near_self d.2.1).add nP).rnd hf ((abs_add_le _ _).trans (add_le_add hd bP)) (e' := 1e-15)
    (by rw [uuR, wwR]; norm_num)
  refine ⟨_, rfl, ?_⟩
  have e : parabola ((d.1 : ℝ), (d.2.1 : ℝ), (d.2.2 : ℝ)) n =
      d.2.1 + n / (2 : ℚ) * (d.2.1 - d.1 + (d.2.2 - d.2.1) + n * (d.2.2 - d.2.1 - (d.2.1 - d.1))) := by
    unfold parabola
    push_cast
    ring
  rw [e]
  exact nR

/-- The parameters of the loop of `_riseset`. -/
structure RiseParamsF (fl : ℚ → ℚ) (jd : ℚ) (y d : ℚ × ℚ × ℚ) (u : ℝ × ℝ × ℝ) (lon TH dT : ℚ) : Prop where
  red : Reduced (castT y) u
  slow : Slow 0.4 0.1 u
  slowd : Slow 0.2 0.1 (castT d)
  dB : |(d.2.1 : ℝ)| ≤ 2
  lonB : |(lon : ℝ)| ≤ π
  theta : NearA TH (gmstDegrees jd * (π / 180)) 7.5e-9
  range : 0 ≤ TH ∧ TH ≤ pi2F

/-- Hour angle and declination of one pass. -/
theorem RiseParamsF.values {fl : ℚ → ℚ} (hf : FloatLike fl) {jd : ℚ} {y d : ℚ × ℚ × ℚ} {u : ℝ × ℝ × ℝ} {lon TH dT : ℚ}
    (S : RiseParamsF fl jd y d u lon TH dT) {m : ℚ} (hm : |(m : ℝ)| ≤ 1.2) (hn : -1 < fl (m + dT) ∧ fl (m + dT) < 1) :
    |(m : ℝ) + dT| ≤ 1.1 ∧
    ∃ R D : ℚ, interpolateAngle3F fl (fl (m + dT)) y.1 y.2.1 y.2.2 = .ok R ∧
      interpolate3 fl (fl (m + dT)) d.1 d.2.1 d.2.2 = .ok D ∧
      |(D : ℝ) - parabola (castT d) (m + dT)| ≤ 1.1e-15 ∧
      NearA (diffAngleF fl 0 (fl (fl (modpi2F fl pi2F (fl (TH + fl (rsK1F fl * m))) - lon) - R)))
        (codeH jd lon dT u m) 7.6e-9 := by
  have n1 : (-1 : ℝ) < fl (m + dT) := by exact_mod_cast hn.1
  have n2 : (fl (m + dT) : ℝ) < 1 := by exact_mod_cast hn.2
  have eN := hf.errR (m + dT)
  push_cast at eN
  rw [uuR, wwR] at eN
  have hmd : |(m : ℝ) + dT| ≤ 1.1 := by
    have := abs_sub_abs_le_abs_sub ((m : ℝ) + dT) (fl (m + dT))
    rw [abs_sub_comm] at this
    have h1 : |(fl (m + dT) : ℝ)| ≤ 1 := abs_le.mpr ⟨n1.le, n2.le⟩
    norm_num at eN ⊢
    linarith
  have eN' : |(fl (m + dT) : ℝ) - (m + dT)| ≤ 1.3e-16 := by
    refine eN.trans ?_
    norm_num at hmd ⊢
    linarith
  have pp := pi_pos
  have th : NearA TH (y.2.1 + lon - 2 * π * ((y.2.1 + lon - gmstDegrees jd * (π / 180)) / (2 * π))) 7.5e-9 := by
    rw [mul_div_cancel₀ _ (by positivity), sub_sub_cancel]
    exact S.theta
  obtain ⟨-, R, eR, nX, bX⟩ := hourF_near hf S.red S.slow S.lonB th (by norm_num) S.range (m := m) (hm.trans (by norm_num)) hn
  obtain ⟨D, eD, nD⟩ := interpolate3F_near hf S.slowd S.dB hn
  refine ⟨hmd, R, D, eR, eD, ?_, ?_⟩
  · have lip := parabola_lip S.slowd (r := 1.1) (n := fl (m + dT)) (n' := m + dT)
      (by rw [abs_le]; norm_num; constructor <;> linarith) hmd
    unfold Near at nD
    have := abs_sub_le (D : ℝ) (parabola (castT d) (fl (m + dT))) (parabola (castT d) (m + dT))
    norm_num at nD lip eN' ⊢
    linarith
  · obtain ⟨k, hk⟩ := diffAngleF_nearA hf (bX.trans (by norm_num)) nX
    obtain ⟨c, ec⟩ := S.red.2.1.2.2
    refine ⟨k - c, ?_⟩
    generalize diffAngleF fl 0 (fl (fl (modpi2F fl pi2F (fl (TH + fl (rsK1F fl * m))) - lon) - R)) = H at *
    have e : localH (castT y) u dT ((y.2.1 + lon - gmstDegrees jd * (π / 180)) / (2 * π)) m + k * (2 * π) =
        codeH jd lon dT u m + ((k - c : ℤ) : ℝ) * (2 * π) := by
      unfold localH codeRa codeH
      rw [mul_div_cancel₀ _ (by positivity)]
      push_cast
      unfold castT at ec ⊢
      simp only at ec ⊢
      linarith
    rw [e] at hk
    exact hk.mono (by norm_num)

/-- The denominator of one pass. -/
theorem denF_near {fl : ℚ → ℚ} (hf : FloatLike fl) {lib : TrigLib} {N : ℕ} (hl : lib.Good fl N) (D lat H : ℚ) :
    Near (fl (fl (fl (pi2F * lib.cosF D) * lib.cosF lat) * lib.sinF H))
      (2 * π * (cos (D : ℝ) * cos (lat : ℝ) * sin (H : ℝ))) 2e-14 := by
  have p4 := Real.pi_lt_d4
  have bp : |2 * π| ≤ 6.2832 := by rw [abs_of_pos (by positivity)]; norm_num at p4 ⊢; linarith
  have c1 : Near (lib.cosF D) (cos (D : ℝ)) (1 / 2 ^ 50) := hl.num.cos D
  have c2 : Near (lib.cosF lat) (cos (lat : ℝ)) (1 / 2 ^ 50) := hl.num.cos lat
  have c3 : Near (lib.sinF H) (sin (H : ℝ)) (1 / 2 ^ 50) := hl.num.sin H
  have b1 : |2 * π * cos (D : ℝ)| ≤ 6.2832 := by
    rw [abs_mul]; exact (mul_le_mul bp (abs_cos_le_one _) (abs_nonneg _) (by norm_num)).trans (by norm_num)
  have n0 : Near pi2F (2 * π) 2.5e-16 := pi2F_near
  have n1 := (n0.mul c1 bp (abs_cos_le_one _)).rnd hf b1 (e' := 6.7e-15) (by rw [uuR, wwR]; norm_num)
  have b2 : |2 * π * cos (D : ℝ) * cos (lat : ℝ)| ≤ 6.2832 := by
    rw [abs_mul]; exact (mul_le_mul b1 (abs_cos_le_one _) (abs_nonneg _) (by norm_num)).trans (by norm_num)
  have n2 := (n1.mul c2 b1 (abs_cos_le_one _)).rnd hf b2 (e' := 1.31e-14) (by rw [uuR, wwR]; norm_num)
  have b3 : |2 * π * cos (D : ℝ) * cos (lat : ℝ) * sin (H : ℝ)| ≤ 6.2832 := by
    rw [abs_mul]; exact (mul_le_mul b2 (abs_sin_le_one _) (abs_nonneg _) (by norm_num)).trans (by norm_num)
  have n3 := (n2.mul c3 b2 (abs_sin_le_one _)).rnd hf b3 (e' := 2e-14) (by rw [uuR, wwR]; norm_num)
  rw [show 2 * π * (cos (D : ℝ) * cos (lat : ℝ) * sin (H : ℝ)) = 2 * π * cos (D : ℝ) * cos (lat : ℝ) * sin (H : ℝ) by ring]
  exact n3

/-- What the loop needs to know; see `RiseState`.  The event is the one for the difference `dT'` between
dynamical and universal time. -/
structure RiseStateF (fl : ℚ → ℚ) (jd : ℚ) (y d : ℚ × ℚ × ℚ) (u : ℝ × ℝ × ℝ) (lon phi h0 TH dT : ℚ) (dT' z : ℝ) : Prop where
  par : RiseParamsF fl jd y d u lon TH dT
  era : |(jd : ℝ) - 2451545| ≤ 1100000
  slow : Slow 0.02 0.001 u
  slowd : Slow 0.0075 0.001 (castT d)
  event : altitude phi (hourAngle jd lon dT' u z) (parabola (castT d) (z + dT')) = h0
  h0s : |(h0 : ℝ)| ≤ 0.1
  steep : 0.45 ≤ |cos (parabola (castT d) (z + dT')) * cos (phi : ℝ) * sin (hourAngle jd lon dT' u z)|
  z1 : |z| ≤ 1.1
  fac : |z + dT'| ≤ 0.97
  close : |(dT : ℝ) - dT'| ≤ 1e-9

theorem RiseStateF.pass {fl : ℚ → ℚ} (hf : FloatLike fl) {lib : RiseLib} {N : ℕ} (hl : lib.Good fl N) {jd : ℚ}
    {y d : ℚ × ℚ × ℚ} {u : ℝ × ℝ × ℝ} {lon phi h0 TH dT : ℚ} {dT' z : ℝ}
    (S : RiseStateF fl jd y d u lon phi h0 TH dT dT' z) (delta : ℚ) (k : ℕ) {m : ℚ} (hm : |(m : ℝ) - z| ≤ 0.0205) :
    ∃ m' : ℚ, |(m' : ℝ) - z| ≤ 0.34 * |(m : ℝ) - z| + 1e-8 ∧
      risesetLoopF fl lib jd TH dT y d h0 delta lon phi phi (k + 1) m =
      if |fl (m' - m)| < delta then .ok (some (fl (jd + m')))
      else risesetLoopF fl lib jd TH dT y d h0 delta lon phi phi k m' := by
  have hp := Real.pi_gt_d4
  have hp4 := Real.pi_lt_d4
  have hpi := pi_pos
  norm_num at hp hp4
  have hk := rsK1_bounds
  have f := abs_le.mp S.fac
  have hm' := abs_le.mp hm
  have hc := abs_le.mp S.close
  have hz1 := abs_le.mp S.z1
  norm_num at f hm' hk hc hz1
  have mB : |(m : ℝ)| ≤ 1.2 := by rw [abs_le]; norm_num; constructor <;> linarith
  have hn0 : |(m : ℝ) + dT| ≤ 0.9906 := by rw [abs_le]; norm_num; constructor <;> linarith
  have hn : |(m : ℝ) + dT'| ≤ 1 := by rw [abs_le]; constructor <;> linarith
  have hn1 : |(m : ℝ) + dT| ≤ 1 := hn0.trans (by norm_num)
  have hz : |z + dT'| ≤ 1 := S.fac.trans (by norm_num)
  have rn : -1 < fl (m + dT) ∧ fl (m + dT) < 1 := by
    have eN := hf.errR (m + dT)
    push_cast at eN
    rw [uuR, wwR] at eN
    have e2 : |(fl (m + dT) : ℝ) - (m + dT)| ≤ 0.001 := by
      norm_num at eN hn0 ⊢
      linarith
    rw [abs_le] at e2 hn0
    norm_num at e2 hn0
    have a : (-1 : ℝ) < fl (m + dT) := by linarith
    have b : (fl (m + dT) : ℝ) < 1 := by linarith
    exact ⟨by exact_mod_cast a, by exact_mod_cast b⟩
  obtain ⟨-, R, D, eR, eD, nD, kH, nH⟩ := S.par.values hf mB rn
  conv => enter [1, m', 2, 1]; unfold risesetLoopF
  simp only [bind, Except.bind]
  rw [if_neg (by tauto), eR, eD]
  simp only
  generalize diffAngleF fl 0 (fl (fl (modpi2F fl pi2F (fl (TH + fl (rsK1F fl * m))) - lon) - R)) = H at *
  have cd := codeH_diff (lon := lon) S.era S.slow (S.z1.trans (by norm_num)) hn hz
  have cdT : |codeH jd lon dT u m - codeH jd lon dT' u m| ≤ 1e-10 := by
    have l := parabola_lip S.slow hn1 hn
    rw [show codeH jd lon dT u m - codeH jd lon dT' u m = -(parabola u (m + dT) - parabola u (m + dT')) by
      unfold codeH; ring, abs_neg]
    refine l.trans ?_
    rw [show (m : ℝ) + dT - (m + dT') = dT - dT' by ring]
    have := S.close
    norm_num at this ⊢
    linarith
  have dd := parabola_lip S.slowd hn1 hz
  have ddm : |(m : ℝ) + dT - (z + dT')| ≤ |(m : ℝ) - z| + 1e-9 := by
    rw [show (m : ℝ) + dT - (z + dT') = (m - z) + (dT - dT') by ring]
    exact (abs_add_le _ _).trans (add_le_add le_rfl S.close)
  have st := S.steep
  have ev := S.event
  set Hz := hourAngle jd lon dT' u z
  set dz := parabola (castT d) (z + dT')
  obtain ⟨X, hX⟩ : ∃ X : ℝ, X = H - kH * (2 * π) := ⟨_, rfl⟩
  have cX : Congr (2 * π) (H : ℝ) X := ⟨kH, by rw [hX]; ring⟩
  have e0 := abs_nonneg ((m : ℝ) - z)
  have xd : |X - Hz - rsK1 * (m - z)| ≤ 0.021 * |(m : ℝ) - z| + 3.08e-8 := by
    unfold Near at nH
    have e : X - Hz - rsK1 * (m - z) = (H - (codeH jd lon dT u m + kH * (2 * π))) +
        (codeH jd lon dT u m - codeH jd lon dT' u m) + (codeH jd lon dT' u m - Hz - rsK1 * (m - z)) := by
      rw [hX]; ring
    rw [e]
    refine (abs_add_le _ _).trans ((add_le_add ((abs_add_le _ _).trans (add_le_add nH cdT)) cd).trans ?_)
    norm_num
    linarith
  have cdb : |X - Hz| ≤ 6.322 * |(m : ℝ) - z| + 3.08e-8 := by
    have : X - Hz = (X - Hz - rsK1 * (m - z)) + rsK1 * (m - z) := by ring
    rw [this]
    refine (abs_add_le _ _).trans ?_
    rw [abs_mul rsK1, abs_of_pos (by linarith : 0 < rsK1)]
    have : rsK1 * |(m : ℝ) - z| ≤ 6.301 * |(m : ℝ) - z| := mul_le_mul_of_nonneg_right (by norm_num; linarith) e0
    norm_num at xd this ⊢
    linarith
  have x1 : |X - Hz| ≤ 0.135 := by norm_num at cdb hm ⊢; linarith
  have ddb : |(D : ℝ) - dz| ≤ 0.0085 * |(m : ℝ) - z| + 1e-11 := by
    have := abs_sub_le (D : ℝ) (parabola (castT d) (m + dT)) dz
    norm_num at nD dd ddm this ⊢
    linarith
  have d1 : |(D : ℝ) - dz| ≤ 0.001 := by norm_num at ddb hm ⊢; linarith
  obtain ⟨Q, hQ⟩ : ∃ Q : ℝ, Q = cos (D : ℝ) * cos (phi : ℝ) * sin X := ⟨_, rfl⟩
  have Dlow : 0.3 ≤ |Q| := by
    have e : cos dz * cos (phi : ℝ) * sin Hz - Q =
        cos (phi : ℝ) * (cos dz * (sin Hz - sin X) + (cos dz - cos (D : ℝ)) * sin X) := by
      rw [hQ]; ring
    have b : |cos dz * cos (phi : ℝ) * sin Hz - Q| ≤ |X - Hz| + |(D : ℝ) - dz| := by
      rw [e, abs_mul]
      have b1 : |cos dz * (sin Hz - sin X)| ≤ |X - Hz| := by
        rw [abs_mul, abs_sub_comm X Hz]
        exact (mul_le_mul (abs_cos_le_one _) (abs_sin_sub_sin_le _ _) (abs_nonneg _) zero_le_one).trans
          (by rw [one_mul])
      have b2 : |(cos dz - cos (D : ℝ)) * sin X| ≤ |(D : ℝ) - dz| := by
        rw [abs_mul, abs_sub_comm (D : ℝ) dz]
        exact (mul_le_mul (abs_cos_sub_cos_le _ _) (abs_sin_le_one _) (abs_nonneg _) (abs_nonneg _)).trans
          (by rw [mul_one])
      have b3 := (abs_add_le (cos dz * (sin Hz - sin X)) ((cos dz - cos (D : ℝ)) * sin X)).trans (add_le_add b1 b2)
      calc _ ≤ 1 * _ := mul_le_mul_of_nonneg_right (abs_cos_le_one (phi : ℝ)) (abs_nonneg _)
        _ ≤ _ := by rw [one_mul]; exact b3
    have t := abs_sub_abs_le_abs_sub (cos dz * cos (phi : ℝ) * sin Hz) Q
    generalize cos dz * cos (phi : ℝ) * sin Hz = Q' at st b t
    norm_num at st x1 d1 ⊢
    linarith
  have Q0 : Q ≠ 0 := by intro h; rw [h] at Dlow; norm_num at Dlow
  have step := rs_step ev S.h0s hQ Dlow x1 d1
  -- the altitude
  have al : |altitude phi X D - h0| ≤ 0.214 := by
    rw [← ev]
    refine (altitude_lip phi X D Hz dz).trans ?_
    refine (mul_le_mul (by linarith : π / 2 ≤ 1.5708) (add_le_add x1 d1) (by positivity) (by norm_num)).trans (by norm_num)
  have al' : |altitude phi X D| ≤ 0.314 := by
    have := abs_add_le (altitude phi X D - h0) (h0 : ℝ)
    rw [sub_add_cancel] at this
    have h := S.h0s
    norm_num at al h ⊢
    linarith
  have ca : 0.95 ≤ cos (altitude phi X D) := by
    have := one_sub_sq_div_two_le_cos (x := altitude phi X D)
    have s2 : altitude phi X D ^ 2 ≤ 0.0986 := by
      rw [← sq_abs]
      refine (pow_le_pow_left₀ (abs_nonneg _) al' 2).trans (by norm_num)
    norm_num at s2 ⊢
    linarith
  obtain ⟨hA, -⟩ := altitudeF_near hf hl.trig phi H D
  have dn := denF_near hf hl.trig D phi H
  rw [altitude_congr cX] at hA
  rw [sin_congr cX, ← hQ] at dn
  obtain ⟨h, eh, nh⟩ := hA (le_trans (by norm_num) ca)
  rw [eh]
  simp only
  have nh' : Near h (altitude phi X D) 1.8e-14 := by
    unfold Near
    refine nh.trans ?_
    rw [div_le_iff₀ (by linarith [show (0 : ℝ) < 0.95 by norm_num])]
    refine le_trans (by norm_num) (mul_le_mul_of_nonneg_left ca (by norm_num))
  generalize fl (fl (fl (pi2F * lib.cosF D) * lib.cosF phi) * lib.sinF H) = den at *
  have nF := (nh'.sub (near_self h0)).rnd hf al (e' := 1.9e-14) (by rw [uuR, wwR]; norm_num)
  have dl : 1.88 ≤ |(den : ℝ)| := by
    have a := abs_sub_abs_le_abs_sub (2 * π * Q) (den : ℝ)
    rw [abs_sub_comm] at a
    unfold Near at dn
    rw [abs_mul, abs_of_pos (by positivity : 0 < 2 * π)] at a
    have : 2 * π * 0.3 ≤ 2 * π * |Q| := mul_le_mul_of_nonneg_left Dlow (by positivity)
    norm_num at this dn ⊢
    linarith
  have d0 : den ≠ 0 := by
    intro h
    rw [h] at dl
    norm_num at dl
  have Q2 : 2 * π * Q ≠ 0 := mul_ne_zero (by positivity) Q0
  have bq : |(altitude phi X D - h0) / (2 * π * Q)| ≤ 0.12 := by
    rw [abs_div, div_le_iff₀ (abs_pos.mpr Q2), abs_mul, abs_of_pos (by positivity : 0 < 2 * π)]
    have : 2 * π * 0.3 ≤ 2 * π * |Q| := mul_le_mul_of_nonneg_left Dlow (by positivity)
    norm_num at this al ⊢
    linarith
  have nq := (nF.divA dn (by norm_num) dl Q2 bq).rnd hf bq (e' := 1.2e-14) (by rw [uuR, wwR]; norm_num)
  have nm := ((near_self m).add nq).rnd hf ((abs_add_le _ _).trans (add_le_add mB bq)) (e' := 2e-14) (by rw [uuR, wwR]; norm_num)
  rw [if_neg d0]
  refine ⟨fl (m + fl (fl (h - h0) / den)), ?_, rfl⟩
  generalize fl (m + fl (fl (h - h0) / den)) = m' at *
  set F := (altitude phi X D - h0) / (2 * π * Q)
  unfold Near at nm
  have e : (m' : ℝ) - z = (m' - (m + F)) + (F + (X - Hz) / (2 * π)) - (X - Hz - rsK1 * (m - z)) / (2 * π) -
      0.985647 / 360 * (m - z) := by
    rw [rsK1_eq]; field_simp; ring
  rw [e]
  have q1 : |(X - Hz - rsK1 * (m - z)) / (2 * π)| ≤ 0.00335 * |(m : ℝ) - z| + 4.95e-9 := by
    rw [abs_div, abs_of_pos (by positivity : (0 : ℝ) < 2 * π), div_le_iff₀ (by positivity)]
    refine xd.trans ?_
    have : 0 ≤ (0.00335 * |(m : ℝ) - z| + 4.95e-9) * (2 * π - 6.283) := by
      refine mul_nonneg (by positivity) (by norm_num; linarith)
    norm_num at this ⊢
    linarith
  have q2 : |0.985647 / 360 * ((m : ℝ) - z)| ≤ 0.00274 * |(m : ℝ) - z| := by
    rw [abs_mul]
    refine mul_le_mul_of_nonneg_right ?_ e0
    rw [abs_of_pos] <;> norm_num
  have t1 := abs_sub ((m' - (m + F)) + (F + (X - Hz) / (2 * π)) - (X - Hz - rsK1 * (m - z)) / (2 * π)) (0.985647 / 360 * ((m : ℝ) - z))
  have t2 := abs_sub ((m' - (m + F)) + (F + (X - Hz) / (2 * π))) ((X - Hz - rsK1 * (m - z)) / (2 * π))
  have t3 := abs_add_le ((m' : ℝ) - (m + F)) (F + (X - Hz) / (2 * π))
  refine t1.trans ?_
  norm_num at q1 q2 step cdb ddb t2 t3 nm ⊢
  linarith

theorem RiseStateF.loop {fl : ℚ → ℚ} (hf : FloatLike fl) {lib : RiseLib} {N : ℕ} (hl : lib.Good fl N) {jd : ℚ}
    {y d : ℚ × ℚ × ℚ} {u : ℝ × ℝ × ℝ} {lon phi h0 TH dT : ℚ} {dT' z : ℝ}
    (S : RiseStateF fl jd y d u lon phi h0 TH dT dT' z) (delta : ℚ) :
    ∀ (k : ℕ) (m : ℚ) (E : ℝ), 0 ≤ E → |(m : ℝ) - z| ≤ E + 1e-8 / 0.66 → E ≤ 0.02 →
      1.35 * (0.34 ^ k * E + 1e-8 / 0.66) + 1.1e-8 < delta →
      ∃ m' : ℚ, risesetLoopF fl lib jd TH dT y d h0 delta lon phi phi (k + 1) m = .ok (some (fl (jd + m'))) ∧
        |(m' : ℝ) - z| ≤ 0.52 * delta + 2e-8 ∧ |(m' : ℝ) - z| ≤ 0.01 := by
  intro k
  have rnd : ∀ m m' : ℚ, |(fl (m' - m) : ℝ) - (m' - m)| ≤ 1e-15 * |(m' : ℝ) - m| + 1e-20 := by
    intro m m'
    have r := hf.errR (m' - m)
    push_cast at r
    rw [uuR, wwR] at r
    norm_num at r ⊢
    linarith [abs_nonneg ((m' : ℝ) - m)]
  have tri : ∀ m m' : ℚ, |(m' : ℝ) - m| ≤ |(m' : ℝ) - z| + |(m : ℝ) - z| := by
    intro m m'
    have := abs_sub_le (m' : ℝ) z m
    rwa [abs_sub_comm z (m : ℝ)] at this
  induction k with
  | zero =>
    intro m E hE he h1 hd
    obtain ⟨m', c, e⟩ := S.pass hf hl delta 0 (m := m) (by norm_num at h1 he ⊢; linarith)
    have r := rnd m m'
    have a1 := tri m m'
    have a2 : |(fl (m' - m) : ℝ)| ≤ |(fl (m' - m) : ℝ) - (m' - m)| + |(m' : ℝ) - m| := by
      have := abs_add_le ((fl (m' - m) : ℝ) - (m' - m)) (m' - m); rwa [sub_add_cancel] at this
    norm_num at c hd he r h1
    have lt : |(fl (m' - m) : ℝ)| < delta := by linarith
    have lt' : |fl (m' - m)| < delta := by exact_mod_cast lt
    refine ⟨m', by rw [e, if_pos lt'], ?_, ?_⟩ <;> norm_num <;> linarith
  | succ k ih =>
    intro m E hE he h1 hd
    obtain ⟨m', c, e⟩ := S.pass hf hl delta (k + 1) (m := m) (by norm_num at h1 he ⊢; linarith)
    rw [e]
    by_cases lt' : |fl (m' - m)| < delta
    · have lt : |(fl (m' - m) : ℝ)| < delta := by exact_mod_cast lt'
      have r := rnd m m'
      have a0 : |(m : ℝ) - z| ≤ |(m' : ℝ) - m| + |(m' : ℝ) - z| := by
        have := abs_sub_le (m : ℝ) m' z
        rwa [abs_sub_comm (m : ℝ) m'] at this
      have a2 : |(m' : ℝ) - m| ≤ |(fl (m' - m) : ℝ) - (m' - m)| + |(fl (m' - m) : ℝ)| := by
        have := abs_sub_le ((m' : ℝ) - m) (fl (m' - m)) 0
        rw [sub_zero, sub_zero, abs_sub_comm _ (fl (m' - m) : ℝ)] at this
        exact this
      have := (abs_nonneg _).trans_lt lt
      norm_num at c r h1 he
      refine ⟨m', if_pos lt', ?_, ?_⟩ <;> norm_num <;> linarith
    · rw [if_neg lt']
      refine ih m' (0.34 * E) (by positivity) ?_ (by norm_num at h1 ⊢; linarith) ?_
      · norm_num at c he ⊢; linarith
      · rw [pow_succ] at hd
        refine lt_of_eq_of_lt ?_ hd
        ring

end Verif
