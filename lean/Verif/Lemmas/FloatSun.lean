import Verif.Lemmas.FloatNut3
import Verif.Lemmas.Equinox

/-!
# Rounding errors of the apparent longitude of the Sun
-/

namespace Verif
open Real

theorem FloatLike.fl_zero {fl : ℚ → ℚ} (hf : FloatLike fl) : fl 0 = 0 :=
  hf.fix 0 ⟨0, 0, by norm_num, by norm_num, by norm_num⟩

theorem FloatLike.fl_nonneg {fl : ℚ → ℚ} (hf : FloatLike fl) {x : ℚ} (h : 0 ≤ x) : 0 ≤ fl x := by
  have := hf.mono h; rwa [hf.fl_zero] at this

theorem FloatLike.neg_of {fl : ℚ → ℚ} (hf : FloatLike fl) {x : ℚ} (h : x ≤ -1 / 4096) : fl x < 0 := by
  have e : fl (-1 / 4096) = -1 / 4096 := hf.fix _ ⟨-1, -12, by norm_num, by norm_num, by norm_num⟩
  have := hf.mono h
  rw [e] at this
  linarith

/-- Seconds of arc, given as degrees. -/
theorem sec_near {fl : ℚ → ℚ} (hf : FloatLike fl) {s : ℚ} (hs : 0 ≤ s ∨ s ≤ -1 / 4096) :
    Near (dmsToD1 fl 0 0 (fl s)) (dmsR 0 0 s) (uu * (|(s : ℝ)| / 1000 + 3 * ww)) := by
  have w0 := ww_posR
  rw [dmsR_sec]
  have q0 := abs_nonneg (s : ℝ)
  have n1 := lit_near hf s
  have n2 : Near |fl s| |(s : ℝ)| (uu * (|(s : ℝ)| + ww)) := by
    unfold Near at n1 ⊢
    push_cast
    exact (abs_abs_sub_abs_le_abs_sub _ _).trans n1
  have a : |(|(s : ℝ)| / ((3600 : ℚ) : ℝ))| ≤ |(s : ℝ)| / 3600 := by
    push_cast; rw [abs_of_nonneg (by positivity)]
  have n3 := (n2.div_const (k := 3600) (by norm_num)).fl hf a
  have n4 := n3.fl hf a
  have n5 := n4.mono (e' := uu * (|(s : ℝ)| / 1000 + 3 * ww)) (by
    push_cast
    rw [uuR]; generalize (ww : ℝ) = w at *
    generalize |(s : ℝ)| = m at *
    norm_num
    nlinarith)
  unfold dmsToD1
  simp only [abs_zero, zero_div, hf.fl_zero, add_zero, zero_add, lt_self_iff_false, false_or]
  push_cast at n5
  rcases hs with h | h
  · have := hf.fl_nonneg h
    rw [if_neg (not_lt.mpr this)]
    rw [abs_of_nonneg (show (0 : ℝ) ≤ s by exact_mod_cast h)] at n5 ⊢
    exact n5
  · have := hf.neg_of h
    rw [if_pos this]
    have h0 : (s : ℝ) < 0 := by
      have : s < 0 := h.trans_lt (by norm_num)
      exact_mod_cast this
    have n6 := n5.neg
    rw [abs_of_neg h0] at n6 ⊢
    rw [show (s : ℝ) / 3600 = -(-(s : ℝ) / 3600) by ring]
    exact n6

/-- Seconds of arc, in radians. -/
theorem arcsecF_near {fl : ℚ → ℚ} (hf : FloatLike fl) {s : ℚ} (hs : 0 ≤ s ∨ s ≤ -1 / 4096) :
    Near (dToRF fl (dmsToD1 fl 0 0 (fl s))) (dToR (dmsR 0 0 s)) (uu * (|(s : ℝ)| / 10000 + 3 * ww)) := by
  have a : |dmsR 0 0 s| ≤ |(s : ℝ)| / 3600 := by
    rw [dmsR_sec, abs_div, abs_of_pos (by norm_num : (0 : ℝ) < 3600)]
  refine (dToRF_near hf (sec_near hf hs) a).mono ?_
  have w0 := ww_posR
  have q0 := abs_nonneg (s : ℝ)
  rw [uuR]; generalize (ww : ℝ) = w at *
  generalize |(s : ℝ)| = m at *
  norm_num
  nlinarith

theorem Near.div {a b : ℚ} {x y e f m M : ℝ} (ha : Near a x e) (hb : Near b y f) (hm : 0 < m) (hbm : m ≤ (b : ℝ))
    (hy : 0 < y) (hM : |x / y| ≤ M) : Near (a / b) (x / y) ((e + M * f) / m) := by
  have b0 : (0 : ℝ) < b := hm.trans_le hbm
  unfold Near at *
  push_cast
  have key : (a : ℝ) / b - x / y = ((a - x) - x / y * (b - y)) / b := by field_simp; ring
  rw [key, abs_div, abs_of_pos b0]
  refine div_le_div₀ ?_ ?_ hm hbm
  · have := (abs_nonneg _).trans ha
    have := (abs_nonneg _).trans hb
    have := (abs_nonneg _).trans hM
    positivity
  · refine (abs_sub _ _).trans (add_le_add ha ?_)
    rw [abs_mul]
    exact mul_le_mul hM hb (abs_nonneg _) ((abs_nonneg _).trans hM)

/-- Adding a small quantity to an angle. -/
theorem NearA.add_fl {fl : ℚ → ℚ} (hf : FloatLike fl) {X Y : ℚ} {x y e f M N : ℝ} (hX : NearA X x e)
    (hM : |(X : ℝ)| ≤ M) (hY : Near Y y f) (hN : |y| ≤ N) :
    NearA (fl (X + Y)) (x + y) (e + f + uu * (M + N + f + ww)) ∧
      |(fl (X + Y) : ℝ)| ≤ M + N + f + uu * (M + N + f + ww) := by
  obtain ⟨k, hX⟩ := hX
  have r := hf.errR (X + Y)
  have b := hY.abs hN
  have t : |((X + Y : ℚ) : ℝ)| ≤ M + N + f := by
    push_cast
    exact (abs_add_le _ _).trans (by linarith)
  have r2 : (uu : ℝ) * (|((X + Y : ℚ) : ℝ)| + ww) ≤ uu * (M + N + f + ww) :=
    mul_le_mul_of_nonneg_left (by linarith) uu_posR.le
  refine ⟨⟨k, ?_⟩, ?_⟩
  · have s := hX.add hY
    unfold Near at *
    have := abs_sub_le (fl (X + Y) : ℝ) ((X + Y : ℚ) : ℝ) (x + y + k * (2 * π))
    have e1 : ((X + Y : ℚ) : ℝ) - (x + y + k * (2 * π)) = ((X + Y : ℚ) : ℝ) - (x + k * (2 * π) + y) := by ring
    rw [e1] at this
    linarith
  · have := abs_add_le ((fl (X + Y) : ℝ) - ((X + Y : ℚ) : ℝ)) ((X + Y : ℚ) : ℝ)
    rw [sub_add_cancel] at this
    linarith

theorem NearA.modpi2F {fl : ℚ → ℚ} (hf : FloatLike fl) {X : ℚ} {x e M : ℝ} (h : NearA X x e) (he : e ≤ 1)
    (hM : |(X : ℝ)| ≤ M) : NearA (modpi2F fl pi2F X) x (e + (M + 21) * 1e-16) := by
  obtain ⟨k, h⟩ := h
  have b : |x + k * (2 * π)| ≤ M + 1 := by
    have := abs_add_le (x + k * (2 * π) - X) X
    rw [sub_add_cancel, abs_sub_comm] at this
    unfold Near at h
    linarith
  obtain ⟨j, n⟩ := modpi2F_nearA hf h he b
  refine ⟨k + j, ?_⟩
  have e1 : x + ((k + j : ℤ) : ℝ) * (2 * π) = x + k * (2 * π) + j * (2 * π) := by push_cast; ring
  rw [e1]
  refine n.mono (le_of_eq ?_)
  ring

theorem pi2F_lt : (pi2F : ℝ) ≤ 6.2832 := by unfold pi2F; norm_num

theorem range_abs {X : ℚ} (h : 0 ≤ X ∧ X ≤ pi2F) : |(X : ℝ)| ≤ 6.2832 := by
  have h0 : (0 : ℝ) ≤ X := by exact_mod_cast h.1
  have h1 : (X : ℝ) ≤ pi2F := by exact_mod_cast h.2
  rw [abs_of_nonneg h0]
  exact h1.trans pi2F_lt

/-! ### The Earth -/

/-- What the series give for the Earth. -/
structure EarthNear (fl : ℚ → ℚ) (lib : NumLib) (jd : ℚ) (e : ℝ) (L B R : ℚ) : Prop where
  eL : vsopDimensionF fl lib.cosF lib.sumF jd "Earth" "L" = .ok L
  eB : vsopDimensionF fl lib.cosF lib.sumF jd "Earth" "B" = .ok B
  eR : vsopDimensionF fl lib.cosF lib.sumF jd "Earth" "R" = .ok R
  nL : NearA L (poisson Data.earthL (millennia jd)) e
  rL : 0 ≤ L ∧ L ≤ pi2F
  nB : Near B (poisson Data.earthB (millennia jd)) 1e-13
  nR : Near R (poisson Data.earthR (millennia jd)) 2e-12

theorem earthNear_of {fl : ℚ → ℚ} {lib : NumLib} {jd : ℚ} {e eB eR : ℚ}
    (h : Agrees fl lib.cosF lib.sumF jd "Earth" "L" e ∧ Agrees fl lib.cosF lib.sumF jd "Earth" "B" eB ∧
      Agrees fl lib.cosF lib.sumF jd "Earth" "R" eR) (hB : eB ≤ 1e-13) (hR : eR ≤ 2e-12) :
    ∃ L B R, EarthNear fl lib jd e L B R := by
  obtain ⟨⟨L, l, k, a1, a2, a3, -, a5⟩, ⟨B, b, i, b1, b2, b3, b4, -⟩, ⟨R, r, j, c1, c2, c3, c4, -⟩⟩ := h
  obtain ⟨kL, kB, kR⟩ := lookup_earth
  have hB' : (eB : ℝ) ≤ 1e-13 := by have := (Rat.cast_le (K := ℝ)).mpr hB; push_cast at this; exact this
  have hR' : (eR : ℝ) ≤ 2e-12 := by have := (Rat.cast_le (K := ℝ)).mpr hR; push_cast at this; exact this
  rw [vsop_dimension_value _ _ _ _ kL, Except.ok.injEq, Out.scalar.injEq, if_pos rfl] at a2
  rw [vsop_dimension_value _ _ _ _ kB, Except.ok.injEq, Out.scalar.injEq, if_neg (by decide)] at b2
  rw [vsop_dimension_value _ _ _ _ kR, Except.ok.injEq, Out.scalar.injEq, if_neg (by decide)] at c2
  have b4 := b4 (by decide)
  have c4 := c4 (by decide)
  subst b4 c4
  obtain ⟨-, -, n, r2⟩ := modpi2_spec (poisson Data.earthL (millennia jd))
  refine ⟨L, B, R, a1, b1, c1, ⟨n + k, ?_⟩, a5 rfl, ?_, ?_⟩
  · unfold Near
    rw [a2] at r2
    rw [r2] at a3
    push_cast
    refine le_trans (le_of_eq ?_) a3
    congr 1; ring
  · rw [b2]; simp at b3; exact le_trans b3 hB'
  · rw [c2]; simp at c3; exact le_trans c3 hR'

theorem jcent_60 {jd : ℝ} (h : |millennia jd| ≤ 6) : |jcent jd| ≤ 60 := by
  rw [jcent_eq_millennia, abs_mul, abs_of_pos (by norm_num : (0 : ℝ) < 10)]; linarith

theorem sunDimension3F_eq {fl : ℚ → ℚ} {lib : NumLib} {jd : ℚ} {e : ℝ} {L B R : ℚ} (h : EarthNear fl lib jd e L B R) :
    sunDimension3F fl lib jd = .ok (modpi2F fl pi2F (fl (L + piF)), -B, R) := by
  unfold sunDimension3F
  rw [h.eL, h.eB, h.eR]; rfl

/-- The aberration. -/
theorem aberrationLowF_near {fl : ℚ → ℚ} (hf : FloatLike fl) {R : ℚ} {r : ℝ} (hR : Near R r 2e-12) (h1 : 0.9748 ≤ r) :
    Near (aberrationLowF fl R) (aberrationLow r) 1e-15 ∧ |aberrationLow r| ≤ 0.00011 := by
  have a := (arcsecF_near hf (s := 20.4898) (by norm_num)).neg
  have r0 : 0 < r := by norm_num at h1; linarith
  have bm : (0.97 : ℝ) ≤ R := by
    have := (abs_le.mp hR).1
    norm_num at this h1 ⊢; linarith
  have M : |-dToR (dmsR 0 0 ((20.4898 : ℚ) : ℝ)) / r| ≤ 0.00011 := by
    rw [abs_div, abs_neg, abs_of_pos r0, div_le_iff₀ r0, dmsR_sec]
    refine (dToR_abs_le _).trans ?_
    push_cast
    rw [abs_of_pos (by norm_num)]
    norm_num at h1 ⊢; linarith
  have d := (a.div hR (by norm_num) bm r0 M).rnd hf M (e' := 1e-15) (by
    push_cast
    rw [uuR, wwR, abs_of_pos (by norm_num)]
    norm_num)
  unfold aberrationLowF aberrationLow
  push_cast at d M
  exact ⟨d, M⟩

theorem lib_sum {S C : ℚ} {s c e : ℝ} (hs : Near S s e) (hc : Near C c e) (h1 : |s| ≤ 1) (h2 : |c| ≤ 1) (he : e ≤ 1e-6)
    {fl : ℚ → ℚ} (hf : FloatLike fl) : |c + s| ≤ 2 ∧ Near (fl (C + S)) (c + s) (2 * e + 1e-15) := by
  have a : |c + s| ≤ 2 := (abs_add_le _ _).trans (by linarith)
  refine ⟨a, (hc.add hs).rnd hf a ?_⟩
  rw [uuR, wwR]; norm_num at he ⊢; linarith

theorem nutation_abs60 {jd : ℝ} (h : |jcent jd| ≤ 60) : |nutationInLongitude jd| ≤ 0.0001 := by
  rw [nutationInLongitude_eq]
  refine (dToR_abs_le _).trans ?_
  have pa := nutPsi_abs (jcent jd)
  rw [abs_div, abs_of_pos (by norm_num : (0 : ℝ) < 3600)]
  norm_num at pa ⊢; linarith

/-- The apparent longitude of the Sun in binary64. -/
theorem apparentSunF_near {fl : ℚ → ℚ} (hf : FloatLike fl) {lib : NumLib} {D : ℕ} (hl : lib.Good fl D) {jd : ℚ}
    (hj : |millennia jd| ≤ 6) {e : ℝ} (he : e ≤ 1e-7) {L B R : ℚ} (h : EarthNear fl lib jd e L B R) :
    ∃ Y, apparentSunF fl lib jd = .ok Y ∧ (0 ≤ Y ∧ Y ≤ pi2F) ∧ NearA Y (sunLambda jd) (e + 1e-12) := by
  obtain ⟨-, -, -, r1, -, b1⟩ := earth6 _ _ hj hj
  have hT := jcent_60 hj
  have tT := jcentF_near hf hT
  have e0 : 0 ≤ e := h.nL.choose_spec.nonneg
  -- the longitude of the Sun
  obtain ⟨l1, l2⟩ := h.nL.add_fl hf (range_abs h.rL) piF_near pi_abs
  have l3 := (l1.modpi2F hf (by rw [uuR, wwR]; norm_num at he ⊢; linarith) l2).mono (e' := e + 1e-14) (by
    rw [uuR, wwR]; norm_num; linarith)
  have l4 := range_abs (modpi2F_range hf (fl (L + piF)))
  -- nutation and aberration
  obtain ⟨a1, a2⟩ := aberrationLowF_near hf h.nR r1
  have a3 := nutation_abs60 hT
  have a4 : |nutationInLongitude jd + aberrationLow (poisson Data.earthR (millennia jd))| ≤ 0.0003 :=
    (abs_add_le _ _).trans (by norm_num at a2 a3 ⊢; linarith)
  have a5 := ((nutationInLongitudeF_near hf hl hT).add a1).rnd hf a4 (e' := 7.1e-13) (by
    rw [uuR, wwR]; norm_num)
  obtain ⟨s1, s2⟩ := l3.add_fl hf l4 a5 a4
  have s3 := s1.mono (e' := e + 8e-13) (by rw [uuR, wwR]; norm_num; linarith)
  have s4 : |(fl (modpi2F fl pi2F (fl (L + piF)) +
      fl (nutationInLongitudeF fl lib jd + aberrationLowF fl R)) : ℝ)| ≤ 6.284 :=
    s2.trans (by rw [uuR, wwR]; norm_num)
  change NearA _ (sunApp jd) _ at s3
  generalize hA : fl (modpi2F fl pi2F (fl (L + piF)) + fl (nutationInLongitudeF fl lib jd + aberrationLowF fl R)) = A at *
  -- the argument of the FK5 correction
  have k0 := radF_near hf (-1.397)
  have k1 := radF_near hf (-0.00031)
  push_cast at k0 k1
  change Near (fk0F fl) fk0 _ at k0
  change Near (fk1F fl) fk1 _ at k1
  have m0 : |fk0| ≤ 0.025 := by
    refine (dToR_abs_le _).trans ?_
    rw [abs_of_neg (by norm_num)]; norm_num
  have m1 : |fk1| ≤ 0.00001 := by
    refine (dToR_abs_le _).trans ?_
    rw [abs_of_neg (by norm_num)]; norm_num
  have q1 : |fk1 * jcent jd| ≤ 0.0006 := by
    rw [abs_mul]; exact (mul_le_mul m1 hT (abs_nonneg _) (by norm_num)).trans (by norm_num)
  have q2 := (k1.mul tT m1 hT).rnd hf q1 (e' := 1e-17) (by
    rw [abs_of_neg (by norm_num : (-0.00031 : ℝ) < 0)]
    push_cast
    rw [uuR, wwR]; norm_num)
  have q3 : |fk0 + fk1 * jcent jd| ≤ 0.03 := (abs_add_le _ _).trans (by norm_num at m0 q1 ⊢; linarith)
  have q4 := (k0.add q2).rnd hf q3 (e' := 3e-17) (by
    rw [abs_of_neg (by norm_num : (-1.397 : ℝ) < 0)]
    rw [uuR, wwR]; norm_num)
  have q5 : |(fk0 + fk1 * jcent jd) * jcent jd| ≤ 1.8 := by
    rw [abs_mul]; exact (mul_le_mul q3 hT (abs_nonneg _) (by norm_num)).trans (by norm_num)
  have q6 := (q4.mul tT q3 hT).rnd hf q5 (e' := 1e-14) (by
    push_cast; rw [uuR, wwR]; norm_num)
  obtain ⟨t1, -⟩ := s3.add_fl hf s4 q6 q5
  have t2 := t1.mono (e' := e + 1e-12) (by rw [uuR, wwR]; norm_num; linarith)
  rw [show sunApp jd + (fk0 + fk1 * jcent jd) * jcent jd = fkArg jd (sunApp jd) by unfold fkArg; ring] at t2
  have cc := (t2.cos hl.cos).mono (e' := 1e-6) (by rw [uuR]; norm_num at he ⊢; linarith)
  have ss := (t2.sin hl.sin).mono (e' := 1e-6) (by rw [uuR]; norm_num at he ⊢; linarith)
  obtain ⟨w1, w2⟩ := lib_sum ss cc (Real.abs_sin_le_one _) (Real.abs_cos_le_one _) le_rfl hf
  -- the correction
  have f2 := arcsecF_near hf (s := -0.09033) (by norm_num)
  have f3 := arcsecF_near hf (s := 0.03916) (by norm_num)
  push_cast at f2 f3
  change Near (fk2F fl) fk2 _ at f2
  change Near (fk3F fl) fk3 _ at f3
  obtain ⟨g1, g2⟩ := fk3_bound
  have g3 : |fk3| ≤ 2e-7 := by rw [abs_of_pos g1]; exact g2
  have g4 : |fk2| ≤ 1e-6 := by
    unfold fk2
    rw [dmsR_sec]
    refine (dToR_abs_le _).trans ?_
    rw [abs_of_neg (by norm_num)]; norm_num
  have v1 : |fk3 * (cos (fkArg jd (sunApp jd)) + sin (fkArg jd (sunApp jd)))| ≤ 4e-7 := by
    rw [abs_mul]; exact (mul_le_mul g3 w1 (abs_nonneg _) (by norm_num)).trans (by norm_num)
  have v2 := (f3.mul w2 g3 w1).rnd hf v1 (e' := 5e-13) (by
    rw [abs_of_pos (by norm_num : (0 : ℝ) < 0.03916)]
    rw [uuR, wwR]; norm_num)
  have z1 := h.nB.neg
  have zb : |(-poisson Data.earthB (millennia jd))| ≤ 0.2 := by rw [abs_neg]; norm_num at b1 ⊢; linarith
  have zB : |((-B : ℚ) : ℝ)| ≤ 0.0001 := (z1.abs (M := 0.00002) (by rw [abs_neg]; exact b1)).trans (by norm_num)
  have z2 : Near (lib.tanF (-B)) (tan (-poisson Data.earthB (millennia jd))) 1e-12 := by
    have t := hl.tan (-B) (by
      have : |((-B : ℚ) : ℝ)| ≤ 1 := zB.trans (by norm_num)
      exact_mod_cast this)
    have t' := tan_lip (b := ((-B : ℚ) : ℝ)) (c := -poisson Data.earthB (millennia jd)) (zB.trans (by norm_num)) zb
    have := abs_sub_le (lib.tanF (-B) : ℝ) (tan ((-B : ℚ) : ℝ)) (tan (-poisson Data.earthB (millennia jd)))
    unfold Near at z1 ⊢
    norm_num at t t' z1 this ⊢
    linarith
  have z3 : |tan (-poisson Data.earthB (millennia jd))| ≤ 0.000022 := by
    have := tan_lip (b := -poisson Data.earthB (millennia jd)) (c := 0) zb (by norm_num)
    rw [tan_zero, sub_zero, sub_zero, abs_neg (poisson _ _)] at this
    norm_num at this b1 ⊢; linarith
  have u1 : |fk3 * (cos (fkArg jd (sunApp jd)) + sin (fkArg jd (sunApp jd))) *
      tan (-poisson Data.earthB (millennia jd))| ≤ 1e-11 := by
    rw [abs_mul]; exact (mul_le_mul v1 z3 (abs_nonneg _) (by norm_num)).trans (by norm_num)
  have u2 := (v2.mul z2 v1 z3).rnd hf u1 (e' := 1e-16) (by rw [uuR, wwR]; norm_num)
  have u3 : |fkDelta jd (sunApp jd) (-poisson Data.earthB (millennia jd))| ≤ 1.1e-6 := by
    unfold fkDelta
    exact (abs_add_le _ _).trans (by norm_num at g4 u1 ⊢; linarith)
  have u4 := (f2.add u2).rnd hf u3 (e' := 1e-15) (by
    rw [abs_of_neg (by norm_num : (-0.09033 : ℝ) < 0)]
    rw [uuR, wwR]; norm_num)
  obtain ⟨y1, y2⟩ := s3.add_fl hf s4 u4 u3
  have y3 := (y1.modpi2F hf (by rw [uuR, wwR]; norm_num at he ⊢; linarith) y2).mono (e' := e + 1e-12) (by
    rw [uuR, wwR]; norm_num; linarith)
  refine ⟨_, ?_, modpi2F_range hf _, y3⟩
  unfold apparentSunF
  rw [sunDimension3F_eq h]
  change Except.ok (vsopToFk5F fl lib jd (fl (modpi2F fl pi2F (fl (L + piF)) +
    fl (nutationInLongitudeF fl lib jd + aberrationLowF fl R))) (-B)).1 = _
  rw [hA]
  rfl

end Verif
