import Verif.Lemmas.FloatMisc2

/-!
# Rounding errors of `ell_to_geo`
-/

namespace Verif
open Real

theorem moonRstAltitudeF_nan {fl : ℚ → ℚ} (hf : FloatLike fl) {lib : TrigLib} {N : ℕ} (hl : lib.Good fl N) {r : ℚ}
    (h0 : 0 < r) (hr : r ≤ 6378) : moonRstAltitudeF fl lib r = none := by
  have f1 : fl (6378 + 1 / 8) = 6378 + 1 / 8 := hf.fix _ ⟨51025, -3, by norm_num, by norm_num, by norm_num⟩
  have f2 : fl (1 + 1 / 65536) = 1 + 1 / 65536 := hf.fix _ ⟨65537, -16, by norm_num, by norm_num, by norm_num⟩
  have a1 : 6378 + 1 / 8 ≤ fl 6378.1363 := by
    have := hf.mono (show (6378 + 1 / 8 : ℚ) ≤ 6378.1363 by norm_num)
    rwa [f1] at this
  have a2 : 1 + 1 / 65536 ≤ fl (fl 6378.1363 / r) := by
    have : (1 + 1 / 65536 : ℚ) ≤ fl 6378.1363 / r := by
      rw [le_div_iff₀ h0]; linarith
    have := hf.mono this
    rwa [f2] at this
  unfold moonRstAltitudeF
  rw [hl.asin_nan _ (by rw [abs_of_pos] <;> linarith)]
  rfl

theorem sqrt_rel {fl : ℚ → ℚ} {lib : GeoLib} {N : ℕ} (hl : lib.Good fl N) {W : ℚ} {q : ℝ} (hq : 0 < q)
    (h : |(W : ℝ) - q| ≤ 1e-15 * q) : |(lib.sqrtF W : ℝ) - √q| ≤ 2e-15 * √q := by
  obtain ⟨h1, h2⟩ := abs_le.mp h
  have W0 : (0 : ℝ) ≤ W := by norm_num at h1; linarith
  have s := hl.sqrt W (by exact_mod_cast W0)
  have q0 : 0 < √q := Real.sqrt_pos.mpr hq
  have w0 := Real.sqrt_nonneg (W : ℝ)
  have wq : 0.9 * √q ≤ √(W : ℝ) := by
    refine Real.le_sqrt_of_sq_le ?_
    rw [mul_pow, Real.sq_sqrt hq.le]
    norm_num at h1 ⊢; linarith
  have d : |√(W : ℝ) - √q| ≤ 6e-16 * √q := by
    have e : (√(W : ℝ) - √q) * (√(W : ℝ) + √q) = W - q := by
      rw [mul_comm, ← sq_sub_sq, Real.sq_sqrt W0, Real.sq_sqrt hq.le]
    have k : |√(W : ℝ) - √q| * (1.9 * √q) ≤ (6e-16 * √q) * (1.9 * √q) := by
      calc |√(W : ℝ) - √q| * (1.9 * √q) ≤ |√(W : ℝ) - √q| * (√(W : ℝ) + √q) :=
            mul_le_mul_of_nonneg_left (by norm_num at wq ⊢; linarith) (abs_nonneg _)
        _ = |(W : ℝ) - q| := by rw [← e, abs_mul, abs_of_nonneg (add_nonneg w0 q0.le)]
        _ ≤ 1e-15 * q := h
        _ ≤ (6e-16 * √q) * (1.9 * √q) := by
            have : (6e-16 * √q) * (1.9 * √q) = 6e-16 * 1.9 * (√q * √q) := by ring
            rw [this, Real.mul_self_sqrt hq.le]
            norm_num; linarith
    exact le_of_mul_le_mul_right k (by positivity)
  have t := abs_sub_le (lib.sqrtF W : ℝ) √(W : ℝ) √q
  have u : √(W : ℝ) ≤ √q + 6e-16 * √q := by have := (abs_le.mp d).2; linarith
  norm_num at s d t u ⊢
  linarith

theorem hypot_sub (x y X Y : ℝ) : |√(X ^ 2 + Y ^ 2) - √(x ^ 2 + y ^ 2)| ≤ √((X - x) ^ 2 + (Y - y) ^ 2) := by
  have k := abs_norm_sub_norm_le (⟨X, Y⟩ : ℂ) ⟨x, y⟩
  simp only [Complex.norm_eq_sqrt_sq_add_sq, Complex.sub_re, Complex.sub_im] at k
  exact k

/-- The radius of curvature `N`, and the eccentricity. -/
theorem ellN_near {fl : ℚ → ℚ} (hf : FloatLike fl) {lib : GeoLib} {K : ℕ} (hl : lib.Good fl K) (lat : ℚ) :
    ∃ ee : ℝ, ee = 2.0 * (1.0 / 298.2564219846) - 1.0 / 298.2564219846 * (1.0 / 298.2564219846) ∧
    (0 ≤ ee ∧ ee ≤ 0.0067) ∧
    Near (fl (fl (2 * fl (1 / fl 298.2564219846)) - fl (fl (1 / fl 298.2564219846) * fl (1 / fl 298.2564219846)))) ee 4e-18 ∧
    (6.378 ≤ earthEquRadius / 1000 / √(1.0 - ee * sin lat * sin lat) ∧
      earthEquRadius / 1000 / √(1.0 - ee * sin lat * sin lat) ≤ 6.41) ∧
    Near (fl (fl (fl 6378.1363 / 1000) / lib.sqrtF (fl (1 - fl (fl
      (fl (fl (2 * fl (1 / fl 298.2564219846)) - fl (fl (1 / fl 298.2564219846) * fl (1 / fl 298.2564219846))) *
        lib.sinF lat) * lib.sinF lat)))))
      (earthEquRadius / 1000 / √(1.0 - ee * sin lat * sin lat)) 2e-14 := by
  have n0 : Near (fl 298.2564219846) 298.2564219846 3.5e-14 := by
    have := (near_self 298.2564219846).rnd hf (M := 298.2564219846) (e' := 3.5e-14)
      (by push_cast; rw [abs_of_pos] <;> norm_num) (by rw [uuR, wwR]; norm_num)
    push_cast at this
    exact this
  have l0 : (298 : ℝ) ≤ (fl 298.2564219846 : ℚ) := by have := (abs_le.mp n0).1; norm_num at this ⊢; linarith
  have n1 : Near (fl (1 / fl 298.2564219846)) (1 / 298.2564219846) 8e-19 := by
    have b : |(1 : ℝ) / 298.2564219846| ≤ 0.00336 := by rw [abs_of_pos] <;> norm_num
    have k := (near_self 1).div n0 (by norm_num) l0 (by norm_num) (M := 0.00336) (by push_cast; exact b)
    push_cast at k
    exact k.rnd hf b (by rw [uuR, wwR]; norm_num)
  have b1 : |(1 : ℝ) / 298.2564219846| ≤ 0.00336 := by rw [abs_of_pos] <;> norm_num
  have m0 : Near (fl 6378.1363) 6378.1363 7.1e-13 := by
    have := (near_self 6378.1363).rnd hf (M := 6378.1363) (e' := 7.1e-13)
      (by push_cast; rw [abs_of_pos] <;> norm_num) (by rw [uuR, wwR]; norm_num)
    push_cast at this
    exact this
  have m1 : Near (fl (fl 6378.1363 / 1000)) (6378.1363 / 1000) 1.5e-15 := by
    have k := m0.div_const (k := 1000) (by norm_num)
    push_cast at k
    exact k.rnd hf (M := 6.379) (by rw [abs_of_pos] <;> norm_num) (by rw [uuR, wwR]; norm_num)
  refine ⟨_, rfl, ?_⟩
  have e1 : (2.0 * (1.0 / 298.2564219846) - 1.0 / 298.2564219846 * (1.0 / 298.2564219846) : ℝ) =
      2 * (1 / 298.2564219846) - 1 / 298.2564219846 * (1 / 298.2564219846) := by norm_num
  have e2 : (1.0 : ℝ) = 1 := by norm_num
  have be : (0 : ℝ) ≤ 2 * (1 / 298.2564219846) - 1 / 298.2564219846 * (1 / 298.2564219846) ∧
      (2 * (1 / 298.2564219846) - 1 / 298.2564219846 * (1 / 298.2564219846) : ℝ) ≤ 0.0067 := by norm_num
  rw [e1]
  rw [show (1.0 : ℝ) - (2 * (1 / 298.2564219846) - 1 / 298.2564219846 * (1 / 298.2564219846)) * sin lat * sin lat =
    1 - (2 * (1 / 298.2564219846) - 1 / 298.2564219846 * (1 / 298.2564219846)) * sin lat * sin lat by rw [e2]]
  have ne : Near (fl (fl (2 * fl (1 / fl 298.2564219846)) - fl (fl (1 / fl 298.2564219846) * fl (1 / fl 298.2564219846))))
      (2 * (1 / 298.2564219846) - 1 / 298.2564219846 * (1 / 298.2564219846)) 4e-18 := by
    generalize fl (1 / fl 298.2564219846) = F at *
    have k2 : Near (fl (2 * F)) (2 * (1 / 298.2564219846)) 2.5e-18 := by
      have k := (near_self 2).mul n1 (M := 2) (by norm_num) b1
      push_cast at k
      exact k.rnd hf (M := 0.0068) (by rw [abs_of_pos] <;> norm_num) (by rw [uuR, wwR]; norm_num)
    have k3 : Near (fl (F * F)) (1 / 298.2564219846 * (1 / 298.2564219846)) 1e-20 :=
      (n1.mul n1 b1 b1).rnd hf (M := 0.000012) (by rw [abs_of_pos] <;> norm_num) (by rw [uuR, wwR]; norm_num)
    exact (k2.sub k3).rnd hf (M := 0.0067) (by rw [abs_of_nonneg be.1]; exact be.2) (by rw [uuR, wwR]; norm_num)
  refine ⟨be, ne, ?_⟩
  generalize fl (fl (2 * fl (1 / fl 298.2564219846)) - fl (fl (1 / fl 298.2564219846) * fl (1 / fl 298.2564219846))) = E at *
  generalize (2 * (1 / 298.2564219846) - 1 / 298.2564219846 * (1 / 298.2564219846) : ℝ) = ee at *
  have ns := (near_self lat).sin hl.trig.num.sin
  have bs := abs_sin_le_one lat
  generalize sin (lat : ℝ) = s at *
  generalize lib.sinF lat = S at *
  have bee : |ee| ≤ 0.0067 := by rw [abs_of_nonneg be.1]; exact be.2
  have b2 : |ee * s| ≤ 0.0067 := by
    rw [abs_mul]; exact (mul_le_mul bee bs (abs_nonneg _) (by norm_num)).trans (by norm_num)
  have b3 : |ee * s * s| ≤ 0.0067 := by
    rw [abs_mul]; exact (mul_le_mul b2 bs (abs_nonneg _) (by norm_num)).trans (by norm_num)
  have n2 : Near (fl (E * S)) (ee * s) 1.2e-17 := (ne.mul ns bee bs).rnd hf b2 (by rw [uuR, wwR]; norm_num)
  have n3 : Near (fl (fl (E * S) * S)) (ee * s * s) 2e-17 := (n2.mul ns b2 bs).rnd hf b3 (by rw [uuR, wwR]; norm_num)
  have s0 : 0 ≤ ee * s * s := by rw [mul_assoc]; exact mul_nonneg be.1 (mul_self_nonneg s)
  have s1 : ee * s * s ≤ 0.0067 := (le_abs_self _).trans b3
  generalize ee * s * s = w at *
  have n4 : Near (fl (1 - fl (fl (E * S) * S))) (1 - w) 1.4e-16 := by
    have k := (near_self 1).sub n3
    push_cast at k
    exact k.rnd hf (M := 1) (by rw [abs_of_nonneg] <;> norm_num at s1 ⊢ <;> linarith) (by rw [uuR, wwR]; norm_num)
  have q0 : 0 < 1 - w := by norm_num at s1; linarith
  have n5 := sqrt_rel hl q0 (W := fl (1 - fl (fl (E * S) * S))) (by
    unfold Near at n4
    refine n4.trans ?_
    norm_num at s1 ⊢; linarith)
  have r1 : √(1 - w) ≤ 1 := by
    rw [Real.sqrt_le_left (by norm_num)]
    linarith
  have r0 : 0.996 ≤ √(1 - w) := by
    refine Real.le_sqrt_of_sq_le ?_
    norm_num at s1 ⊢; linarith
  have n6 : Near (lib.sqrtF (fl (1 - fl (fl (E * S) * S)))) √(1 - w) 2e-15 := by
    refine n5.trans ?_
    norm_num; linarith
  generalize √(1 - w) = z at *
  generalize lib.sqrtF (fl (1 - fl (fl (E * S) * S))) = Z at *
  have z0 : 0 < z := by norm_num at r0; linarith
  have eN : earthEquRadius / 1000 / z = 6378.1363 / 1000 / z := rfl
  rw [eN]
  have hN : (6.378 : ℝ) ≤ 6378.1363 / 1000 / z ∧ 6378.1363 / 1000 / z ≤ (6.41 : ℝ) := by
    constructor
    · rw [le_div_iff₀ z0]; norm_num; linarith
    · rw [div_le_iff₀ z0]; norm_num at r0 ⊢; linarith
  refine ⟨hN, ?_⟩
  have aN : |(6378.1363 : ℝ) / 1000 / z| ≤ 6.41 := by
    rw [abs_of_nonneg (le_trans (by norm_num) hN.1)]; exact hN.2
  have Z0 : (0.99 : ℝ) ≤ Z := by have := (abs_le.mp n6).1; norm_num at this r0 ⊢; linarith
  exact (m1.div n6 (by norm_num) Z0 z0 aN).rnd hf aN (by rw [uuR, wwR]; norm_num)

theorem ellToGeoF_near {fl : ℚ → ℚ} (hf : FloatLike fl) {lib : GeoLib} {K : ℕ} (hl : lib.Good fl K) (lat lon ht : ℚ)
    (h1 : -1 ≤ ht) (h2 : ht ≤ 100) :
    Near (ellToGeoF fl lib lat lon ht).1 (ellToGeo lat lon ht).1 6e-13 ∧
      NearA (ellToGeoF fl lib lat lon ht).2.1 (ellToGeo lat lon ht).2.1 1e-13 ∧
      (ellToGeoF fl lib lat lon ht).2.2 = lon := by
  obtain ⟨ee, e1, be, ne, bN, nN⟩ := ellN_near hf hl lat
  have er : (ellToGeo lat lon ht).1 =
      √((earthEquRadius / 1000 / √(1.0 - ee * sin lat * sin lat) + ht) * cos lat *
          ((earthEquRadius / 1000 / √(1.0 - ee * sin lat * sin lat) + ht) * cos lat) +
        (earthEquRadius / 1000 / √(1.0 - ee * sin lat * sin lat) * (1 - ee) + ht) * sin lat *
          ((earthEquRadius / 1000 / √(1.0 - ee * sin lat * sin lat) * (1 - ee) + ht) * sin lat)) := by
    rw [e1]; rfl
  have et : (ellToGeo lat lon ht).2.1 =
      arctan2 ((earthEquRadius / 1000 / √(1.0 - ee * sin lat * sin lat) + ht) * cos lat)
        ((earthEquRadius / 1000 / √(1.0 - ee * sin lat * sin lat) * (1 - ee) + ht) * sin lat) := by
    rw [e1]; rfl
  rw [er, et]
  unfold ellToGeoF
  dsimp only
  have ns := (near_self lat).sin hl.trig.num.sin
  have nc := (near_self lat).cos hl.trig.num.cos
  have bs := abs_sin_le_one lat
  have bc := abs_cos_le_one lat
  have unit := sin_sq_add_cos_sq (lat : ℝ)
  generalize fl (fl (fl 6378.1363 / 1000) / lib.sqrtF (fl (1 - fl (fl
      (fl (fl (2 * fl (1 / fl 298.2564219846)) - fl (fl (1 / fl 298.2564219846) * fl (1 / fl 298.2564219846))) *
        lib.sinF lat) * lib.sinF lat)))) = N at *
  generalize fl (fl (2 * fl (1 / fl 298.2564219846)) - fl (fl (1 / fl 298.2564219846) * fl (1 / fl 298.2564219846))) = E at *
  generalize earthEquRadius / 1000 / √(1.0 - ee * sin (lat : ℝ) * sin lat) = n at *
  generalize sin (lat : ℝ) = s at *
  generalize cos (lat : ℝ) = c at *
  generalize lib.sinF lat = S at *
  generalize lib.cosF lat = C at *
  have g1 : (-1 : ℝ) ≤ ht := by exact_mod_cast h1
  have g2 : (ht : ℝ) ≤ 100 := by exact_mod_cast h2
  clear er et e1 h1 h2
  have bn : |n| ≤ 6.41 := by rw [abs_of_nonneg (le_trans (by norm_num) bN.1)]; exact bN.2
  have b1 : |n + ht| ≤ 106.41 := by rw [abs_le]; constructor <;> norm_num at bN ⊢ <;> linarith [bN.1, bN.2]
  have n1 : Near (fl (N + ht)) (n + ht) 3.3e-14 := by
    have k := nN.add (near_self ht)
    exact k.rnd hf b1 (by rw [uuR, wwR]; norm_num)
  have bx : |(n + ht) * c| ≤ 106.41 := by
    rw [abs_mul]; exact (mul_le_mul b1 bc (abs_nonneg _) (by norm_num)).trans (by norm_num)
  have nx : Near (fl (fl (N + ht) * C)) ((n + ht) * c) 1.5e-13 := (n1.mul nc b1 bc).rnd hf bx (by rw [uuR, wwR]; norm_num)
  have b2 : |1 - ee| ≤ 1 := by rw [abs_le]; constructor <;> norm_num at be ⊢ <;> linarith [be.1, be.2]
  have n2 : Near (fl (1 - E)) (1 - ee) 1.2e-16 := by
    have k := (near_self 1).sub ne
    push_cast at k
    exact k.rnd hf b2 (by rw [uuR, wwR]; norm_num)
  have n0 : 0 ≤ n := le_trans (by norm_num) bN.1
  have b3' : 6.33 ≤ n * (1 - ee) ∧ n * (1 - ee) ≤ 6.41 := by
    have : n * ee ≤ 6.41 * 0.0067 := mul_le_mul bN.2 be.2 be.1 (by norm_num)
    have := mul_nonneg n0 be.1
    constructor <;> norm_num at * <;> linarith [bN.1, bN.2]
  have b3 : |n * (1 - ee)| ≤ 6.41 := by rw [abs_of_nonneg (le_trans (by norm_num) b3'.1)]; exact b3'.2
  have n3 : Near (fl (N * fl (1 - E))) (n * (1 - ee)) 2.2e-14 := (nN.mul n2 bn b2).rnd hf b3 (by rw [uuR, wwR]; norm_num)
  have b4 : |n * (1 - ee) + ht| ≤ 106.41 := by rw [abs_le]; constructor <;> norm_num at b3' ⊢ <;> linarith [b3'.1, b3'.2]
  have n4 : Near (fl (fl (N * fl (1 - E)) + ht)) (n * (1 - ee) + ht) 3.5e-14 := by
    have k := n3.add (near_self ht)
    exact k.rnd hf b4 (by rw [uuR, wwR]; norm_num)
  have by' : |(n * (1 - ee) + ht) * s| ≤ 106.41 := by
    rw [abs_mul]; exact (mul_le_mul b4 bs (abs_nonneg _) (by norm_num)).trans (by norm_num)
  have ny : Near (fl (fl (fl (N * fl (1 - E)) + ht) * S)) ((n * (1 - ee) + ht) * s) 1.5e-13 :=
    (n4.mul ns b4 bs).rnd hf by' (by rw [uuR, wwR]; norm_num)
  have low : (5.33 : ℝ) ^ 2 ≤ ((n + ht) * c) ^ 2 + ((n * (1 - ee) + ht) * s) ^ 2 := by
    have k1 : (5.33 : ℝ) ^ 2 ≤ (n + ht) ^ 2 :=
      pow_le_pow_left₀ (by norm_num) (by have := bN.1; norm_num at this ⊢; linarith) 2
    have k2 : (5.33 : ℝ) ^ 2 ≤ (n * (1 - ee) + ht) ^ 2 :=
      pow_le_pow_left₀ (by norm_num) (by have := b3'.1; norm_num at this ⊢; linarith) 2
    rw [mul_pow, mul_pow]
    have := mul_le_mul_of_nonneg_right k1 (sq_nonneg c)
    have := mul_le_mul_of_nonneg_right k2 (sq_nonneg s)
    generalize (n + ht) ^ 2 = A at *
    generalize (n * (1 - ee) + ht) ^ 2 = B at *
    have u : (5.33 : ℝ) ^ 2 = 5.33 ^ 2 * c ^ 2 + 5.33 ^ 2 * s ^ 2 := by rw [← mul_add, add_comm, unit, mul_one]
    rw [u]
    linarith
  generalize (n + ht) * c = x at *
  generalize (n * (1 - ee) + ht) * s = y at *
  generalize fl (fl (N + ht) * C) = X at *
  generalize fl (fl (fl (N * fl (1 - E)) + ht) * S) = Y at *
  have dd : ((X : ℝ) - x) ^ 2 + ((Y : ℝ) - y) ^ 2 ≤ (2.2e-13) ^ 2 := by
    have a := pow_le_pow_left₀ (abs_nonneg _) nx 2
    have b := pow_le_pow_left₀ (abs_nonneg _) ny 2
    rw [sq_abs] at a b
    norm_num at a b ⊢; linarith
  have hd := hypot_sub x y X Y
  have hd' : |√((X : ℝ) ^ 2 + (Y : ℝ) ^ 2) - √(x ^ 2 + y ^ 2)| ≤ 2.2e-13 :=
    hd.trans ((Real.sqrt_le_sqrt dd).trans (by rw [Real.sqrt_sq (by norm_num)]))
  have lx : (5.33 : ℝ) ≤ √(x ^ 2 + y ^ 2) := Real.le_sqrt_of_sq_le low
  have ux : √(x ^ 2 + y ^ 2) ≤ 151 := by
    rw [Real.sqrt_le_left (by norm_num)]
    have a := pow_le_pow_left₀ (abs_nonneg _) bx 2
    have b := pow_le_pow_left₀ (abs_nonneg _) by' 2
    rw [sq_abs] at a b
    norm_num at a b ⊢; linarith
  have lX : (5.3 : ℝ) ≤ √((X : ℝ) ^ 2 + (Y : ℝ) ^ 2) := by have := (abs_le.mp hd').1; norm_num at this lx ⊢; linarith
  have uX : √((X : ℝ) ^ 2 + (Y : ℝ) ^ 2) ≤ 152 := by have := (abs_le.mp hd').2; norm_num at this ⊢; linarith
  have lX2 : (5.3 : ℝ) ^ 2 ≤ (X : ℝ) ^ 2 + (Y : ℝ) ^ 2 := by
    rwa [Real.le_sqrt' (by norm_num)] at lX
  refine ⟨?_, ?_, rfl⟩
  · have k := (squares_near hf X Y 0 (le_trans (by norm_num) lX2)).1
    have m := sqrt_rel hl (lt_of_lt_of_le (by norm_num) lX2) k
    have t := abs_sub_le (lib.sqrtF (fl (fl (X * X) + fl (Y * Y))) : ℝ) √((X : ℝ) ^ 2 + (Y : ℝ) ^ 2) √(x ^ 2 + y ^ 2)
    unfold Near
    rw [← sq x, ← sq y]
    norm_num at hd' m t uX ⊢; linarith
  · have k := atan2F_near hl.trig (X := Y) (Y := X) (x := y) (y := x) (r := 5.3) (e := 2.2e-13) (by norm_num)
      (by rw [add_comm]; exact lX2) (by rw [add_comm]; exact le_trans (by norm_num) low) (by norm_num)
      (by rw [add_comm]; exact dd)
    refine k.mono ?_
    have := Real.pi_lt_d2
    norm_num at this ⊢; linarith

end Verif
