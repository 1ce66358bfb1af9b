import Verif.Lemmas.FloatMisc

/-!
# Rounding errors of the low precision Sun, of `ell_to_geo` and of `moon_rst_altitude`
-/

namespace Verif
open Real

theorem Near.sin {sinF : ℚ → ℚ} (hc : ∀ x : ℚ, |(sinF x : ℝ) - Real.sin x| ≤ 1 / 2 ^ 50) {a : ℚ} {x e : ℝ}
    (ha : Near a x e) : Near (sinF a) (Real.sin x) (e + 8 * uu) :=
  NearA.sin hc ⟨0, by simpa using ha⟩

/-- A literal, with its bound and error given. -/
theorem rad_lit {fl : ℚ → ℚ} (hf : FloatLike fl) (q : ℚ) {m e : ℝ} (hm : 0.01746 * |(q : ℝ)| ≤ m)
    (he : uu * (0.06 * |(q : ℝ)| + 3 * ww) ≤ e) : |dToR q| ≤ m ∧ Near (dToRF fl (fl q)) (dToR q) e :=
  ⟨(dToR_abs_le _).trans hm, (radF_near hf q).mono he⟩

/-! ### `longitude_radius_low` -/

/-- The equation of the centre, radians, as the code has it. -/
noncomputable def centerR (T M : ℝ) : ℝ :=
  polyR [dToR 1.914602, dToR (-0.004817), dToR (-0.000014)] T * sin M +
    (dToR 0.019993 - dToR (-0.000101) * T) * sin (2 * M) + dToR 0.000289 * sin (3 * M)

theorem degC_eq : (degC.map fun q : ℚ => dToR (q : ℝ)) = [dToR 1.914602, dToR (-0.004817), dToR (-0.000014)] := by
  unfold degC; simp only [List.map]; push_cast; rfl

theorem lowCenterF_near {fl : ℚ → ℚ} (hf : FloatLike fl) {lib : NumLib} {D : ℕ} (hl : lib.Good fl D) {jd M : ℚ}
    (h : |jcent jd| ≤ 60) {m : ℝ} (nM : Near M m 3.6e-11) (hm : |m| ≤ 37720) :
    Near (lowCenterF fl lib (jcentF fl jd) M) (centerR (jcent jd) m) 1.7e-12 ∧ |centerR (jcent jd) m| ≤ 0.04 := by
  have nT := jcentF_near hf h
  obtain ⟨p1, p2⟩ := horner_near hf (T := 60) nT (by push_cast; exact h) degC
  rw [degC_eq] at p1 p2
  have o1 : hM 60 degC ≤ 0.0394 := by decide +kernel
  have o2 : hE 60 (126 * uu) degC ≤ 1e-16 := by decide +kernel
  have o1 := (Rat.cast_le (K := ℝ)).mpr o1
  have o2 := (Rat.cast_le (K := ℝ)).mpr o2
  push_cast at o1 o2
  have p1 := p1.trans o1
  have p2 := p2.mono o2
  obtain ⟨c3, d3⟩ := rad_lit hf 0.019993 (m := 0.00036) (e := 1e-18)
    (by push_cast; rw [abs_of_pos] <;> norm_num) (by rw [uuR, wwR]; push_cast; rw [abs_of_pos] <;> norm_num)
  obtain ⟨c4, d4⟩ := rad_lit hf (-0.000101) (m := 0.0000018) (e := 1e-20)
    (by push_cast; rw [abs_of_neg] <;> norm_num) (by rw [uuR, wwR]; push_cast; rw [abs_of_neg] <;> norm_num)
  obtain ⟨c5, d5⟩ := rad_lit hf 0.000289 (m := 0.0000051) (e := 1e-20)
    (by push_cast; rw [abs_of_pos] <;> norm_num) (by rw [uuR, wwR]; push_cast; rw [abs_of_pos] <;> norm_num)
  push_cast at c3 d3 c4 d4 c5 d5 nT
  have s1 := nM.sin hl.sin
  have n2 : Near (fl (2 * M)) (2 * m) 8.1e-11 := by
    have k := (near_self 2).mul nM (M := 2) (N := 37720) (by norm_num) hm
    push_cast at k
    refine k.rnd hf (M := 75440) ?_ (by rw [uuR, wwR]; norm_num)
    rw [abs_mul, abs_of_pos (by norm_num : (0 : ℝ) < 2)]; linarith
  have n3 : Near (fl (3 * M)) (3 * m) 1.3e-10 := by
    have k := (near_self 3).mul nM (M := 3) (N := 37720) (by norm_num) hm
    push_cast at k
    refine k.rnd hf (M := 113160) ?_ (by rw [uuR, wwR]; norm_num)
    rw [abs_mul, abs_of_pos (by norm_num : (0 : ℝ) < 3)]; linarith
  have s2 := n2.sin hl.sin
  have s3 := n3.sin hl.sin
  have b1 := abs_sin_le_one m
  have b2 := abs_sin_le_one (2 * m)
  have b3 := abs_sin_le_one (3 * m)
  unfold lowCenterF centerR radF at *
  generalize polyR [dToR 1.914602, dToR (-0.004817), dToR (-0.000014)] (jcent jd) = P at *
  generalize horner fl (jcentF fl jd) (degC.map fun q => dToRF fl (fl q)) = PF at *
  generalize dToRF fl (fl 0.019993) = C3 at *
  generalize dToRF fl (fl (-0.000101)) = C4 at *
  generalize dToRF fl (fl 0.000289) = C5 at *
  generalize dToR 0.019993 = k3 at *
  generalize dToR (-0.000101) = k4 at *
  generalize dToR 0.000289 = k5 at *
  generalize sin m = x1 at *
  generalize sin (2 * m) = x2 at *
  generalize sin (3 * m) = x3 at *
  generalize lib.sinF M = X1 at *
  generalize lib.sinF (fl (2 * M)) = X2 at *
  generalize lib.sinF (fl (3 * M)) = X3 at *
  generalize jcentF fl jd = TF at *
  generalize jcent (jd : ℝ) = t at *
  have mul_le : ∀ {a b A B : ℝ}, |a| ≤ A → |b| ≤ B → |a * b| ≤ A * B := by
    intro a b A B ha hb
    rw [abs_mul]; exact mul_le_mul ha hb (abs_nonneg _) ((abs_nonneg _).trans ha)
  have q1 : |P * x1| ≤ 0.0394 := (mul_le p1 b1).trans (by norm_num)
  have q4 : |k4 * t| ≤ 0.00011 := (mul_le c4 h).trans (by norm_num)
  have q34 : |k3 - k4 * t| ≤ 0.00047 := (abs_sub _ _).trans (by norm_num at c3 q4 ⊢; linarith)
  have q2 : |(k3 - k4 * t) * x2| ≤ 0.00047 := (mul_le q34 b2).trans (by norm_num)
  have q3 : |k5 * x3| ≤ 0.0000051 := (mul_le c5 b3).trans (by norm_num)
  have q12 : |P * x1 + (k3 - k4 * t) * x2| ≤ 0.03987 := (abs_add_le _ _).trans (by norm_num at q1 q2 ⊢; linarith)
  have q123 : |P * x1 + (k3 - k4 * t) * x2 + k5 * x3| ≤ 0.04 := (abs_add_le _ _).trans (by norm_num at q12 q3 ⊢; linarith)
  refine ⟨?_, q123⟩
  have t1 : Near (fl (PF * X1)) (P * x1) 1.5e-12 := (p2.mul s1 p1 b1).rnd hf q1 (by rw [uuR, wwR]; norm_num)
  have t4 : Near (fl (C4 * TF)) (k4 * t) 1e-18 := (d4.mul nT c4 h).rnd hf q4 (by rw [uuR, wwR]; norm_num)
  have t34 : Near (fl (C3 - fl (C4 * TF))) (k3 - k4 * t) 1e-17 := (d3.sub t4).rnd hf q34 (by rw [uuR, wwR]; norm_num)
  have t2 : Near (fl (fl (C3 - fl (C4 * TF)) * X2)) ((k3 - k4 * t) * x2) 1e-13 :=
    (t34.mul s2 q34 b2).rnd hf q2 (by rw [uuR, wwR]; norm_num)
  have t3 : Near (fl (C5 * X3)) (k5 * x3) 1e-15 := (d5.mul s3 c5 b3).rnd hf q3 (by rw [uuR, wwR]; norm_num)
  have t12 : Near (fl (fl (PF * X1) + fl (fl (C3 - fl (C4 * TF)) * X2))) (P * x1 + (k3 - k4 * t) * x2) 1.65e-12 :=
    (t1.add t2).rnd hf q12 (by rw [uuR, wwR]; norm_num)
  exact (t12.add t3).rnd hf q123 (by rw [uuR, wwR]; norm_num)

theorem degL0_eq : (degL0.map fun q : ℚ => dToR (q : ℝ)) = [dToR 280.46646, dToR 36000.76983, dToR 0.0003032] := by
  unfold degL0; simp only [List.map]; push_cast; rfl

theorem anomaly_near {fl : ℚ → ℚ} (hf : FloatLike fl) {jd : ℚ} (h : |jcent jd| ≤ 60) :
    Near (horner fl (jcentF fl jd) (radF fl degM)) (polyR kM (jcent jd)) 3.6e-11 ∧ |polyR kM (jcent jd)| ≤ 37720 := by
  obtain ⟨p1, p2⟩ := horner_near hf (T := 60) (jcentF_near hf h) (by push_cast; exact h) degM
  rw [degM_eq] at p1 p2
  have o1 : hM 60 degM ≤ 37720 := by decide +kernel
  have o2 : hE 60 (126 * uu) degM ≤ 3.6e-11 := by decide +kernel
  have o1 := (Rat.cast_le (K := ℝ)).mpr o1
  have o2 := (Rat.cast_le (K := ℝ)).mpr o2
  push_cast at o1 o2
  exact ⟨p2.mono o2, p1.trans o1⟩

theorem meanLow_near {fl : ℚ → ℚ} (hf : FloatLike fl) {jd : ℚ} (h : |jcent jd| ≤ 60) :
    Near (horner fl (jcentF fl jd) (radF fl degL0)) (polyR [dToR 280.46646, dToR 36000.76983, dToR 0.0003032] (jcent jd))
      3.6e-11 ∧ |polyR [dToR 280.46646, dToR 36000.76983, dToR 0.0003032] (jcent jd)| ≤ 37720 := by
  obtain ⟨p1, p2⟩ := horner_near hf (T := 60) (jcentF_near hf h) (by push_cast; exact h) degL0
  rw [degL0_eq] at p1 p2
  have o1 : hM 60 degL0 ≤ 37720 := by decide +kernel
  have o2 : hE 60 (126 * uu) degL0 ≤ 3.6e-11 := by decide +kernel
  have o1 := (Rat.cast_le (K := ℝ)).mpr o1
  have o2 := (Rat.cast_le (K := ℝ)).mpr o2
  push_cast at o1 o2
  exact ⟨p2.mono o2, p1.trans o1⟩

theorem eccF_near {fl : ℚ → ℚ} (hf : FloatLike fl) {jd : ℚ} (h : |jcent jd| ≤ 60) :
    Near (horner fl (jcentF fl jd) [fl 0.016708634, fl (-0.000042037), fl (-0.0000001267)])
      (polyR [0.016708634, -0.000042037, -0.0000001267] (jcent jd)) 1e-17 ∧
    |polyR [0.016708634, -0.000042037, -0.0000001267] (jcent jd)| ≤ 0.0197 := by
  obtain ⟨a, n⟩ := coef_near hf (T := 60) (jcentF_near hf h) (by push_cast; exact h)
    ([0.016708634, -0.000042037, -0.0000001267].map (Coef.lit fl)) (by
      intro q hq
      obtain ⟨s, -, rfl⟩ := List.mem_map.mp hq
      exact Coef.lit_ok hf s)
  have e1 : ([0.016708634, -0.000042037, -0.0000001267].map (Coef.lit fl)).map Coef.C =
      [fl 0.016708634, fl (-0.000042037), fl (-0.0000001267)] := rfl
  have e2 : ([0.016708634, -0.000042037, -0.0000001267].map (Coef.lit fl)).map Coef.c =
      [0.016708634, -0.000042037, -0.0000001267] := by
    simp only [List.map, Coef.lit]; push_cast; rfl
  have e3 : ([0.016708634, -0.000042037, -0.0000001267].map (Coef.lit fl)).map (fun q => (q.m, q.e)) =
      [0.016708634, -0.000042037, -0.0000001267].map fun q : ℚ => (|q|, uu * (|q| + ww)) := rfl
  rw [e1, e2, e3] at n
  rw [e2, e3] at a
  have o1 : cM 60 ([0.016708634, -0.000042037, -0.0000001267].map fun q : ℚ => (|q|, uu * (|q| + ww))) ≤ 0.0197 := by
    decide +kernel
  have o2 : cE 60 (126 * uu) ([0.016708634, -0.000042037, -0.0000001267].map fun q : ℚ => (|q|, uu * (|q| + ww))) ≤
    1e-17 := by decide +kernel
  have o1 := (Rat.cast_le (K := ℝ)).mpr o1
  have o2 := (Rat.cast_le (K := ℝ)).mpr o2
  push_cast at o1 o2
  exact ⟨n.mono o2, a.trans o1⟩

theorem longitudeRadiusLowF_near {fl : ℚ → ℚ} (hf : FloatLike fl) {lib : NumLib} {D : ℕ} (hl : lib.Good fl D) {jd : ℚ}
    (h : |jcent jd| ≤ 60) :
    NearA (longitudeRadiusLowF fl lib jd).1 (longitudeRadiusLow jd).1 5e-11 ∧
      Near (longitudeRadiusLowF fl lib jd).2 (longitudeRadiusLow jd).2 1e-12 := by
  obtain ⟨nM, bM⟩ := anomaly_near hf h
  obtain ⟨nL, bL⟩ := meanLow_near hf h
  obtain ⟨nE, bE⟩ := eccF_near hf h
  obtain ⟨nC, bC⟩ := lowCenterF_near hf hl h nM bM
  have eL : (longitudeRadiusLow jd).1 = modpi2 (polyR [dToR 280.46646, dToR 36000.76983, dToR 0.0003032] (jcent jd) +
    centerR (jcent jd) (polyR kM (jcent jd))) := rfl
  have eR : (longitudeRadiusLow jd).2 = 1.000001018 *
      (1 - polyR [0.016708634, -0.000042037, -0.0000001267] (jcent jd) * polyR [0.016708634, -0.000042037, -0.0000001267] (jcent jd)) /
      (1 + polyR [0.016708634, -0.000042037, -0.0000001267] (jcent jd) *
        cos (polyR kM (jcent jd) + centerR (jcent jd) (polyR kM (jcent jd)))) := rfl
  rw [eL, eR]
  unfold longitudeRadiusLowF
  dsimp only
  generalize centerR (jcent jd) (polyR kM (jcent jd)) = c at *
  generalize lowCenterF fl lib (jcentF fl jd) (horner fl (jcentF fl jd) (radF fl degM)) = C at *
  generalize horner fl (jcentF fl jd) (radF fl degM) = M at *
  generalize polyR kM (jcent jd) = m at *
  generalize polyR [dToR 280.46646, dToR 36000.76983, dToR 0.0003032] (jcent jd) = l at *
  generalize horner fl (jcentF fl jd) (radF fl degL0) = L at *
  generalize polyR [0.016708634, -0.000042037, -0.0000001267] (jcent jd) = x at *
  generalize horner fl (jcentF fl jd) [fl 0.016708634, fl (-0.000042037), fl (-0.0000001267)] = X at *
  constructor
  · have b : |l + c| ≤ 37721 := (abs_add_le _ _).trans (by norm_num at bC ⊢; linarith)
    have n1 : Near (fl (L + C)) (l + c) 4.3e-11 := (nL.add nC).rnd hf b (by rw [uuR, wwR]; norm_num)
    obtain ⟨k, n2⟩ := modpi2F_nearA hf n1 (by norm_num) b
    obtain ⟨j, hj⟩ := (modpi2_spec (l + c)).2.2
    refine ⟨k - j, ?_⟩
    have e4 : modpi2 (l + c) + ((k - j : ℤ) : ℝ) * (2 * π) = l + c + k * (2 * π) := by
      rw [hj]; push_cast; ring
    rw [e4]
    exact n2.mono (by norm_num)
  · have b : |m + c| ≤ 37721 := (abs_add_le _ _).trans (by norm_num at bC ⊢; linarith)
    have n1 : Near (fl (M + C)) (m + c) 4.3e-11 := (nM.add nC).rnd hf b (by rw [uuR, wwR]; norm_num)
    have n2 := n1.cos hl.cos
    have bc := abs_cos_le_one (m + c)
    generalize lib.cosF (fl (M + C)) = V at *
    generalize cos (m + c) = v at *
    have b1 : |x * v| ≤ 0.0197 := by
      rw [abs_mul]; exact (mul_le_mul bE bc (abs_nonneg _) (by norm_num)).trans (by norm_num)
    have n3 : Near (fl (X * V)) (x * v) 8.6e-13 := (nE.mul n2 bE bc).rnd hf b1 (by rw [uuR, wwR]; norm_num)
    have b2 : |1 + x * v| ≤ 1.02 := (abs_add_le _ _).trans (by rw [abs_one]; norm_num at b1 ⊢; linarith)
    have n4 : Near (fl (1 + fl (X * V))) (1 + x * v) 8.7e-13 := by
      have k := (near_self 1).add n3
      push_cast at k
      exact k.rnd hf b2 (by rw [uuR, wwR]; norm_num)
    have b3 : |x * x| ≤ 0.0004 := by
      rw [abs_mul]; exact (mul_le_mul bE bE (abs_nonneg _) (by norm_num)).trans (by norm_num)
    have n5 : Near (fl (X * X)) (x * x) 1e-18 := (nE.mul nE bE bE).rnd hf b3 (by rw [uuR, wwR]; norm_num)
    have b4 : |1 - x * x| ≤ 1 := by
      rw [abs_le] at b3 ⊢
      have := mul_self_nonneg x
      constructor <;> linarith [b3.2]
    have n6 : Near (fl (1 - fl (X * X))) (1 - x * x) 1.2e-16 := by
      have k := (near_self 1).sub n5
      push_cast at k
      exact k.rnd hf b4 (by rw [uuR, wwR]; norm_num)
    have n7 : Near (fl 1.000001018) 1.000001018 1.2e-16 := by
      have := (near_self 1.000001018).rnd hf (M := 1.000001018) (e' := 1.2e-16)
        (by push_cast; rw [abs_of_pos] <;> norm_num) (by rw [uuR, wwR]; norm_num)
      push_cast at this
      exact this
    have b5 : |1.000001018 * (1 - x * x)| ≤ 1.0001 := by
      rw [abs_mul, abs_of_pos (by norm_num : (0 : ℝ) < 1.000001018)]
      norm_num at b4 ⊢; linarith
    have n8 : Near (fl (fl 1.000001018 * fl (1 - fl (X * X)))) (1.000001018 * (1 - x * x)) 4e-16 :=
      (n7.mul n6 (M := 1.000002) (by rw [abs_of_pos] <;> norm_num) b4).rnd hf b5 (by rw [uuR, wwR]; norm_num)
    have y0 : 0.98 ≤ 1 + x * v := by have := (abs_le.mp b1).1; norm_num at this ⊢; linarith
    have Y0 : (0.979 : ℝ) ≤ (fl (1 + fl (X * V)) : ℚ) := by
      have := (abs_le.mp n4).1; norm_num at this y0 ⊢; linarith
    have b6 : |1.000001018 * (1 - x * x) / (1 + x * v)| ≤ 1.03 := by
      rw [abs_div, abs_of_pos (show 0 < 1 + x * v by norm_num at y0; linarith), div_le_iff₀ (by norm_num at y0; linarith)]
      norm_num at b5 y0 ⊢; linarith
    exact (n8.div n4 (by norm_num) Y0 (by norm_num at y0; linarith) b6).rnd hf b6 (by rw [uuR, wwR]; norm_num)

/-! ### `apparent_longitude_low` -/

theorem apparentLongitudeLowF_near {fl : ℚ → ℚ} (hf : FloatLike fl) {lib : NumLib} {D : ℕ} (hl : lib.Good fl D)
    {jd L : ℚ} (h : |jcent jd| ≤ 60) (hL : |(L : ℝ)| ≤ 10) :
    NearA (apparentLongitudeLowF fl lib jd L) (apparentLongitudeLow jd L) 7e-15 := by
  have nT := jcentF_near hf h
  obtain ⟨c0, d0⟩ := rad_lit hf 125.04 (m := 2.2) (e := 1e-15)
    (by push_cast; rw [abs_of_pos] <;> norm_num) (by rw [uuR, wwR]; push_cast; rw [abs_of_pos] <;> norm_num)
  obtain ⟨c1, d1⟩ := rad_lit hf 1934.136 (m := 33.8) (e := 1.4e-14)
    (by push_cast; rw [abs_of_pos] <;> norm_num) (by rw [uuR, wwR]; push_cast; rw [abs_of_pos] <;> norm_num)
  obtain ⟨c2, d2⟩ := rad_lit hf 0.00569 (m := 0.0001) (e := 1e-19)
    (by push_cast; rw [abs_of_pos] <;> norm_num) (by rw [uuR, wwR]; push_cast; rw [abs_of_pos] <;> norm_num)
  obtain ⟨c3, d3⟩ := rad_lit hf 0.00478 (m := 0.0001) (e := 1e-19)
    (by push_cast; rw [abs_of_pos] <;> norm_num) (by rw [uuR, wwR]; push_cast; rw [abs_of_pos] <;> norm_num)
  push_cast at c0 d0 c1 d1 c2 d2 c3 d3 nT
  have e1 : apparentLongitudeLow jd L = modpi2 (L - dToR 0.00569 - dToR 0.00478 * sin (dToR 125.04 - dToR 1934.136 * jcent jd)) := rfl
  rw [e1]
  unfold apparentLongitudeLowF
  dsimp only
  generalize dToRF fl (fl 125.04) = A0 at *
  generalize dToRF fl (fl 1934.136) = A1 at *
  generalize dToRF fl (fl 0.00569) = A2 at *
  generalize dToRF fl (fl 0.00478) = A3 at *
  generalize dToR 125.04 = a0 at *
  generalize dToR 1934.136 = a1 at *
  generalize dToR 0.00569 = a2 at *
  generalize dToR 0.00478 = a3 at *
  generalize jcentF fl jd = TF at *
  generalize jcent (jd : ℝ) = t at *
  have b1 : |a1 * t| ≤ 2028 := by
    rw [abs_mul]; exact (mul_le_mul c1 h (abs_nonneg _) (by norm_num)).trans (by norm_num)
  have n1 : Near (fl (A1 * TF)) (a1 * t) 1.8e-12 := (d1.mul nT c1 h).rnd hf b1 (by rw [uuR, wwR]; norm_num)
  have b2 : |a0 - a1 * t| ≤ 2031 := (abs_sub _ _).trans ((add_le_add c0 b1).trans (by norm_num))
  have n2 : Near (fl (A0 - fl (A1 * TF))) (a0 - a1 * t) 2.5e-12 := (d0.sub n1).rnd hf b2 (by rw [uuR, wwR]; norm_num)
  have n3 := n2.sin hl.sin
  have bs := abs_sin_le_one (a0 - a1 * t)
  generalize sin (a0 - a1 * t) = s at *
  generalize lib.sinF (fl (A0 - fl (A1 * TF))) = S at *
  have b3 : |a3 * s| ≤ 0.0001 := by
    rw [abs_mul]; exact (mul_le_mul c3 bs (abs_nonneg _) (by norm_num)).trans (by norm_num)
  have n4 : Near (fl (A3 * S)) (a3 * s) 3e-16 := (d3.mul n3 c3 bs).rnd hf b3 (by rw [uuR, wwR]; norm_num)
  have b5 : |(L : ℝ) - a2| ≤ 10.0001 := (abs_sub _ _).trans (by norm_num at c2 ⊢; linarith)
  have n5 : Near (fl (L - A2)) (L - a2) 1.2e-15 := ((near_self L).sub d2).rnd hf b5 (by rw [uuR, wwR]; norm_num)
  have b6 : |(L : ℝ) - a2 - a3 * s| ≤ 10.0002 := (abs_sub _ _).trans (by norm_num at b5 b3 ⊢; linarith)
  have n6 : Near (fl (fl (L - A2) - fl (A3 * S))) (L - a2 - a3 * s) 2.7e-15 := (n5.sub n4).rnd hf b6 (by rw [uuR, wwR]; norm_num)
  obtain ⟨k, n7⟩ := modpi2F_nearA hf n6 (by norm_num) b6
  obtain ⟨j, hj⟩ := (modpi2_spec ((L : ℝ) - a2 - a3 * s)).2.2
  refine ⟨k - j, ?_⟩
  have e4 : modpi2 ((L : ℝ) - a2 - a3 * s) + ((k - j : ℤ) : ℝ) * (2 * π) = L - a2 - a3 * s + k * (2 * π) := by
    rw [hj]; push_cast; ring
  rw [e4]
  exact n7.mono (by norm_num)

/-! ### `moon_rst_altitude` -/

theorem moonRstAltitudeF_near {fl : ℚ → ℚ} (hf : FloatLike fl) {lib : TrigLib} {N : ℕ} (hl : lib.Good fl N) {r : ℚ}
    (hr : 10000 ≤ r) : ∃ a, moonRstAltitudeF fl lib r = some a ∧ Near a (moonRstAltitude r) 1.5e-15 := by
  have hr' : (10000 : ℝ) ≤ r := by exact_mod_cast hr
  have r0 : (0 : ℝ) < r := by linarith
  have n0 : Near (fl 6378.1363) 6378.1363 7.1e-13 := by
    have := (near_self 6378.1363).rnd hf (M := 6378.1363) (e' := 7.1e-13)
      (by push_cast; rw [abs_of_pos] <;> norm_num) (by rw [uuR, wwR]; norm_num)
    push_cast at this
    exact this
  have b0 : |(6378.1363 : ℝ) / r| ≤ 0.638 := by
    rw [abs_of_pos (by positivity), div_le_iff₀ r0]; norm_num; linarith
  have n1 : Near (fl (fl 6378.1363 / r)) (6378.1363 / r) 1.5e-16 :=
    (n0.div (near_self r) (m := 10000) (by norm_num) hr' r0 b0).rnd hf b0 (by rw [uuR, wwR]; norm_num)
  have b1 := n1.abs b0
  have b1' : |fl (fl 6378.1363 / r)| ≤ 1 := by
    have : |((fl (fl 6378.1363 / r) : ℚ) : ℝ)| ≤ 1 := b1.trans (by norm_num)
    exact_mod_cast this
  obtain ⟨y, hy, ny⟩ := hl.asin _ b1'
  refine ⟨_, by unfold moonRstAltitudeF; rw [hy]; rfl, ?_⟩
  have k := arcsin_near (Z := ((fl (fl 6378.1363 / r) : ℚ) : ℝ)) (z := 6378.1363 / r) (b1.trans (by norm_num)) (b0.trans (by norm_num))
  have cz : (0.77 : ℝ) ≤ cos (arcsin (6378.1363 / r)) := by
    rw [cos_arcsin]
    refine Real.le_sqrt_of_sq_le ?_
    have : ((6378.1363 : ℝ) / r) ^ 2 ≤ 0.638 ^ 2 := sq_le_sq' (by have := (abs_le.mp b0).1; linarith) (abs_le.mp b0).2
    norm_num at this ⊢; linarith
  have bz : |arcsin ((6378.1363 : ℝ) / r)| ≤ 0.7 := by
    have z0 : (0 : ℝ) ≤ 6378.1363 / r := by positivity
    rw [abs_of_nonneg (Real.arcsin_nonneg.mpr z0)]
    rw [Real.arcsin_le_iff_le_sin' ⟨by have := Real.pi_pos; linarith, by have := Real.pi_gt_three; norm_num; linarith⟩]
    have := Real.sin_gt_sub_cube (x := 0.7) (by norm_num)
    have := (abs_le.mp b0).2
    norm_num at *; linarith
  have e1 : moonRstAltitude r = 0.7275 * arcsin ((6378.1363 : ℝ) / r) + -0.00989078087105 := rfl
  rw [e1]
  generalize arcsin ((6378.1363 : ℝ) / r) = z at *
  generalize arcsin ((fl (fl 6378.1363 / r) : ℚ) : ℝ) = Z at *
  have d : |Z - z| ≤ 6.2e-16 := by
    unfold Near at n1
    have p := Real.pi_lt_d2
    have : 0.77 * |Z - z| ≤ 3.15 * 1.5e-16 := by
      refine (mul_le_mul_of_nonneg_right cz (abs_nonneg _)).trans (k.trans ?_)
      exact mul_le_mul p.le n1 (abs_nonneg _) (by norm_num)
    norm_num at this ⊢; linarith
  have ny' : Near y z 1.51e-15 := by
    have := abs_sub_le (y : ℝ) Z z
    unfold Near
    norm_num at *; linarith
  have n2 : Near (fl 0.7275) 0.7275 1e-16 := by
    have := (near_self 0.7275).rnd hf (M := 0.7275) (e' := 1e-16)
      (by push_cast; rw [abs_of_pos] <;> norm_num) (by rw [uuR, wwR]; norm_num)
    push_cast at this
    exact this
  have n3 : Near (fl (-0.00989078087105)) (-0.00989078087105) 2e-18 := by
    have := (near_self (-0.00989078087105)).rnd hf (M := 0.00989078087105) (e' := 2e-18)
      (by push_cast; rw [abs_of_neg] <;> norm_num) (by rw [uuR, wwR]; norm_num)
    push_cast at this
    exact this
  have b2 : |0.7275 * z| ≤ 0.51 := by
    rw [abs_mul, abs_of_pos (by norm_num : (0 : ℝ) < 0.7275)]; norm_num at bz ⊢; linarith
  have n4 : Near (fl (fl 0.7275 * y)) (0.7275 * z) 1.3e-15 :=
    (n2.mul ny' (M := 0.7275) (by rw [abs_of_pos] <;> norm_num) bz).rnd hf b2 (by rw [uuR, wwR]; norm_num)
  have b3 : |0.7275 * z + -0.00989078087105| ≤ 0.52 := (abs_add_le _ _).trans (by
    rw [abs_of_neg (by norm_num : (-0.00989078087105 : ℝ) < 0)]; norm_num at b2 ⊢; linarith)
  exact (n4.add n3).rnd hf b3 (by rw [uuR, wwR]; norm_num)

end Verif
