import Verif.Model.Equinox
import Verif.Props.Planets
import Verif.Props.SunLow

/-!
# Lemmas about the apparent longitude of the Sun: unreduced value and rate
-/

namespace Verif
open Real

/-- Apparent longitude before the reduction to FK5, unreduced. -/
noncomputable def sunApp (jd : ℝ) : ℝ :=
  poisson Data.earthL (millennia jd) + π +
    (nutationInLongitude jd + aberrationLow (poisson Data.earthR (millennia jd)))

/-- The argument of the FK5 correction. -/
noncomputable def fkArg (jd L : ℝ) : ℝ := L + fk0 * jcent jd + fk1 * jcent jd ^ 2

/-- The FK5 correction of a longitude. -/
noncomputable def fkDelta (jd L B : ℝ) : ℝ :=
  fk2 + fk3 * (cos (fkArg jd L) + sin (fkArg jd L)) * tan B

/-- Apparent longitude of the Sun, unreduced. -/
noncomputable def sunLambda (jd : ℝ) : ℝ :=
  sunApp jd + fkDelta jd (sunApp jd) (-poisson Data.earthB (millennia jd))

theorem polyR_fk (jd L : ℝ) : polyR [L, fk0, fk1] (jcent jd) = fkArg jd L := by
  unfold fkArg; simp only [polyR, horner]; ring

theorem fkDelta_congr {jd L L' B : ℝ} (h : Congr (2 * π) L L') : fkDelta jd L B = fkDelta jd L' B := by
  have c : Congr (2 * π) (fkArg jd L) (fkArg jd L') := by
    unfold fkArg
    exact congr_add (congr_add h (congr_refl _)) (congr_refl _)
  unfold fkDelta
  rw [cos_congr c, sin_congr c]

theorem apparentSun_eq (jd : ℝ) : apparentSun vsopDict jd = .ok (modpi2 (sunLambda jd)) := by
  unfold apparentSun
  rw [sun_dimension3_value]
  have c : Congr (2 * π) (modpi2 (poisson Data.earthL (millennia jd) + π) +
      (nutationInLongitude jd + aberrationLow (poisson Data.earthR (millennia jd)))) (sunApp jd) :=
    congr_add (modpi2_spec _).2.2 (congr_refl _)
  change Except.ok (modpi2 _) = _
  congr 1
  refine modpi2_congr ?_
  unfold sunLambda
  refine congr_add c ?_
  rw [polyR_fk]
  have := fkDelta_congr (jd := jd) (B := -poisson Data.earthB (millennia jd)) c
  unfold fkDelta at this
  unfold fkDelta
  rw [this]
  exact congr_refl _

/-! ### Rates -/

/-- The Earth's orbit for 6000 years. -/
theorem earth6 (t u : ℝ) (ht : |t| ≤ 6) (hu : |u| ≤ 6) :
    |poisson Data.earthL t - poisson Data.earthL u - 6283.32 * (t - u)| ≤ 327 * |t - u| ∧
    |poisson Data.earthR t - poisson Data.earthR u| ≤ 164 * |t - u| ∧
    |poisson Data.earthB t - poisson Data.earthB u| ≤ 0.388 * |t - u| ∧
    0.9748 ≤ poisson Data.earthR t ∧ poisson Data.earthR t ≤ 1.0255 ∧
    |poisson Data.earthB t| ≤ 0.00002 := by
  have m : (⟨"Earth", 0.9748, 1.0255, 0.00002, 6283.32, 327⟩ : Orbit) ∈ orbits6 := by simp [orbits6]
  obtain ⟨cL, cB, cR, hL, hB, hR, h1, h2⟩ := orbitOk_spec (orbits6_ok _ m)
  obtain ⟨kL, kB, kR⟩ := lookup_earth
  rw [show ("Earth", "L") = ((⟨"Earth", 0.9748, 1.0255, 0.00002, 6283.32, 327⟩ : Orbit).name, "L")
    from rfl, hL, Option.some.injEq] at kL
  rw [show ("Earth", "B") = ((⟨"Earth", 0.9748, 1.0255, 0.00002, 6283.32, 327⟩ : Orbit).name, "B")
    from rfl, hB, Option.some.injEq] at kB
  rw [show ("Earth", "R") = ((⟨"Earth", 0.9748, 1.0255, 0.00002, 6283.32, 327⟩ : Orbit).name, "R")
    from rfl, hR, Option.some.injEq] at kR
  subst kL kB kR
  have ht' : |t| ≤ ((6 : ℕ) : ℝ) := by push_cast; exact ht
  have hu' : |u| ≤ ((6 : ℕ) : ℝ) := by push_cast; exact hu
  obtain ⟨r1, r2, r3⟩ := h1 t ht'
  have r4 := h2 t u ht' hu'
  have sR : pSpeed 6 Data.earthR ≤ 164 * 10 ^ 22 := by decide +kernel
  have sB : pSpeed 6 Data.earthB ≤ 388 * 10 ^ 19 := by decide +kernel
  have eR := pval_lip Data.earthR ht' hu'
  have eB := pval_lip Data.earthB ht' hu'
  rw [← poisson_eq_pval, ← poisson_eq_pval] at eR eB
  refine ⟨?_, ?_, ?_, ?_, ?_, ?_⟩
  · push_cast at r4; exact r4
  · refine eR.trans (mul_le_mul_of_nonneg_right ?_ (abs_nonneg _))
    have : (pSpeed 6 Data.earthR : ℝ) ≤ (164 * 10 ^ 22 : ℕ) := by exact_mod_cast sR
    rw [div_le_iff₀ (by positivity)]
    exact this.trans (by norm_num)
  · refine eB.trans (mul_le_mul_of_nonneg_right ?_ (abs_nonneg _))
    have : (pSpeed 6 Data.earthB : ℝ) ≤ (388 * 10 ^ 19 : ℕ) := by exact_mod_cast sB
    rw [div_le_iff₀ (by positivity)]
    exact this.trans (by norm_num)
  · push_cast at r1; exact r1
  · push_cast at r2; exact r2
  · push_cast at r3; exact r3

theorem jcent_eq_millennia (jd : ℝ) : jcent jd = 10 * millennia jd := by
  unfold jcent millennia; ring

theorem pi_small : π < 3.15 := Real.pi_lt_d2

theorem nutation_lip {x y : ℝ} (hx : |millennia x| ≤ 6) (hy : |millennia y| ≤ 6) :
    |nutationInLongitude x - nutationInLongitude y| ≤ 3 * |millennia x - millennia y| := by
  have h := nutPsi_lip (T := jcent x) (U := jcent y)
    (by rw [jcent_eq_millennia, abs_mul, abs_of_pos (by norm_num : (0 : ℝ) < 10)]; linarith)
    (by rw [jcent_eq_millennia, abs_mul, abs_of_pos (by norm_num : (0 : ℝ) < 10)]; linarith)
  rw [nutationInLongitude_eq, nutationInLongitude_eq, dToR_sec, dToR_sec,
    show arcsec (nutPsi (jcent x)) - arcsec (nutPsi (jcent y)) =
      arcsec (nutPsi (jcent x) - nutPsi (jcent y)) by unfold arcsec; ring, abs_arcsec]
  have d : |jcent x - jcent y| = 10 * |millennia x - millennia y| := by
    rw [jcent_eq_millennia, jcent_eq_millennia, ← mul_sub, abs_mul,
      abs_of_pos (by norm_num : (0 : ℝ) < 10)]
  rw [d] at h
  refine (arcsec_le.mpr h).trans ?_
  unfold arcsec
  have p := pi_small
  have n := abs_nonneg (millennia x - millennia y)
  norm_num at p ⊢
  nlinarith

theorem aberration_lip {R S : ℝ} (hR : 0.97 ≤ R) (hS : 0.97 ≤ S) :
    |aberrationLow R - aberrationLow S| ≤ 0.0002 * |R - S| := by
  norm_num at hR hS
  have r0 : 0 < R := by linarith
  have s0 : 0 < S := by linarith
  rw [(aberration_low_value R r0).1, (aberration_low_value S s0).1,
    show -arcsec (20.4898 / R) - -arcsec (20.4898 / S) =
      arcsec (20.4898 / S - 20.4898 / R) by unfold arcsec; ring, abs_arcsec]
  have e : (20.4898 : ℝ) / S - 20.4898 / R = 20.4898 * (R - S) / (R * S) := by field_simp
  rw [e, abs_div, abs_mul, abs_of_pos (mul_pos r0 s0), abs_of_pos (by norm_num : (0 : ℝ) < 20.4898)]
  have q : 20.4898 * |R - S| / (R * S) ≤ 22 * |R - S| := by
    rw [div_le_iff₀ (mul_pos r0 s0)]
    have rs : (0.94 : ℝ) ≤ R * S := by norm_num; nlinarith
    have n := abs_nonneg (R - S)
    norm_num at rs ⊢
    nlinarith
  refine (arcsec_le.mpr q).trans ?_
  unfold arcsec
  have p := pi_small
  have n := abs_nonneg (R - S)
  norm_num at p ⊢
  nlinarith

theorem sunApp_rate {x y : ℝ} (hx : |millennia x| ≤ 6) (hy : |millennia y| ≤ 6) :
    |sunApp x - sunApp y - 6283.32 * (millennia x - millennia y)| ≤
      331 * |millennia x - millennia y| := by
  obtain ⟨l, r, -, r1, -, -⟩ := earth6 _ _ hx hy
  obtain ⟨-, -, -, r2, -, -⟩ := earth6 _ _ hy hx
  have a := aberration_lip (R := poisson Data.earthR (millennia x))
    (S := poisson Data.earthR (millennia y)) (by norm_num at r1 ⊢; linarith)
    (by norm_num at r2 ⊢; linarith)
  have n := nutation_lip hx hy
  unfold sunApp
  have e : ∀ a b c a' b' c' p d : ℝ, a + p + (b + c) - (a' + p + (b' + c')) - d =
      (a - a' - d) + ((b - b') + (c - c')) := by intros; ring
  rw [e]
  refine (abs_add_le _ _).trans ((add_le_add l ((abs_add_le _ _).trans (add_le_add n
    (a.trans (mul_le_mul_of_nonneg_left r (by norm_num)))))).trans ?_)
  have := abs_nonneg (millennia x - millennia y)
  norm_num
  linarith

theorem fk0_eq : fk0 = deg (-1.397) := deg_eq _
theorem fk1_eq : fk1 = deg (-0.00031) := deg_eq _
theorem fk2_eq : fk2 = arcsec (-0.09033) := by unfold fk2; rw [dmsR_sec, dToR_sec]
theorem fk3_eq : fk3 = arcsec 0.03916 := by unfold fk3; rw [dmsR_sec, dToR_sec]

theorem fk3_bound : 0 < fk3 ∧ fk3 ≤ 2e-7 := by
  rw [fk3_eq]
  unfold arcsec
  refine ⟨by positivity, ?_⟩
  have p := pi_small
  norm_num at p ⊢
  linarith

theorem tan_lip {b c : ℝ} (hb : |b| ≤ 0.2) (hc : |c| ≤ 0.2) : |tan b - tan c| ≤ 1.1 * |b - c| := by
  have key : ∀ {x : ℝ}, |x| ≤ 0.2 → 0.98 ≤ cos x := by
    intro x hx
    have h1 := one_sub_sq_div_two_le_cos (x := x)
    have h2 : x ^ 2 ≤ 0.2 ^ 2 := sq_le_sq' (abs_le.mp hx).1 (abs_le.mp hx).2
    norm_num at h1 h2 ⊢
    linarith
  have kb := key hb
  have kc := key hc
  norm_num at kb kc
  have b0 : 0 < cos b := by linarith
  have c0 : 0 < cos c := by linarith
  have e : tan b - tan c = sin (b - c) / (cos b * cos c) := by
    rw [tan_eq_sin_div_cos, tan_eq_sin_div_cos, sin_sub]; field_simp
  rw [e, abs_div, abs_of_pos (mul_pos b0 c0), div_le_iff₀ (mul_pos b0 c0)]
  have s : |sin (b - c)| ≤ |b - c| := Real.abs_sin_le_abs
  have q : (0.96 : ℝ) ≤ cos b * cos c := by norm_num; nlinarith
  have n := abs_nonneg (b - c)
  norm_num at q ⊢
  nlinarith

theorem fkArg_rate {x y : ℝ} (hx : |millennia x| ≤ 6) (hy : |millennia y| ≤ 6) (L M : ℝ) (c : ℝ)
    (h : |L - M| ≤ c * |millennia x - millennia y|) :
    |fkArg x L - fkArg y M| ≤ (c + 1) * |millennia x - millennia y| := by
  unfold fkArg
  rw [jcent_eq_millennia, jcent_eq_millennia]
  generalize millennia x = s at *
  generalize millennia y = t at *
  have e : L + fk0 * (10 * s) + fk1 * (10 * s) ^ 2 - (M + fk0 * (10 * t) + fk1 * (10 * t) ^ 2) =
      (L - M) + (10 * fk0 + 100 * fk1 * (s + t)) * (s - t) := by ring
  rw [e]
  refine (abs_add_le _ _).trans ?_
  rw [add_mul c, one_mul, abs_mul]
  refine add_le_add h (mul_le_of_le_one_left (abs_nonneg _) ?_)
  rw [fk0_eq, fk1_eq]
  have e2 : 10 * deg (-1.397) + 100 * deg (-0.00031) * (s + t) = deg (-13.97 - 0.031 * (s + t)) := by
    unfold deg; ring
  rw [e2, abs_deg]
  obtain ⟨a1, a2⟩ := abs_le.mp hx
  obtain ⟨b1, b2⟩ := abs_le.mp hy
  have : |-13.97 - 0.031 * (s + t)| ≤ 15 := by rw [abs_le]; constructor <;> norm_num <;> linarith
  refine (deg_le.mpr this).trans ?_
  unfold deg
  have p := pi_small
  norm_num at p ⊢
  linarith

theorem sunLambda_rate {x y : ℝ} (hx : |millennia x| ≤ 6) (hy : |millennia y| ≤ 6) :
    |sunLambda x - sunLambda y - 6283.32 * (millennia x - millennia y)| ≤
      332 * |millennia x - millennia y| := by
  have a := sunApp_rate hx hy
  have a' : |sunApp x - sunApp y| ≤ 6700 * |millennia x - millennia y| := by
    have := abs_add_le (sunApp x - sunApp y - 6283.32 * (millennia x - millennia y))
      (6283.32 * (millennia x - millennia y))
    rw [sub_add_cancel, abs_mul, abs_of_pos (by norm_num : (0 : ℝ) < 6283.32)] at this
    have n := abs_nonneg (millennia x - millennia y)
    norm_num at this a ⊢
    linarith
  have f := fkArg_rate hx hy _ _ _ a'
  obtain ⟨-, -, b, -, -, b1⟩ := earth6 _ _ hx hy
  obtain ⟨-, -, -, -, -, b2⟩ := earth6 _ _ hy hx
  have n := abs_nonneg (millennia x - millennia y)
  unfold sunLambda
  rw [show ∀ a b c d e : ℝ, a + b - (c + d) - e = (a - c - e) + (b - d) by intros; ring]
  refine (abs_add_le _ _).trans ?_
  suffices h : |fkDelta x (sunApp x) (-poisson Data.earthB (millennia x)) -
      fkDelta y (sunApp y) (-poisson Data.earthB (millennia y))| ≤ 1 * |millennia x - millennia y| by
    linarith
  unfold fkDelta
  generalize fkArg x (sunApp x) = u at *
  generalize fkArg y (sunApp y) = v at *
  generalize poisson Data.earthB (millennia x) = B at *
  generalize poisson Data.earthB (millennia y) = C at *
  generalize |millennia x - millennia y| = w at *
  obtain ⟨k0, k1⟩ := fk3_bound
  have tl : |tan (-B) - tan (-C)| ≤ 1.1 * |B - C| := by
    have := tan_lip (b := -B) (c := -C) (by rw [abs_neg]; norm_num at b1 ⊢; linarith)
      (by rw [abs_neg]; norm_num at b2 ⊢; linarith)
    rwa [show -B - -C = -(B - C) by ring, abs_neg] at this
  have tz : |tan (-C)| ≤ 1 := by
    have := tan_lip (b := -C) (c := 0) (by rw [abs_neg]; norm_num at b2 ⊢; linarith) (by norm_num)
    rw [tan_zero, sub_zero, sub_zero, abs_neg] at this
    norm_num at this b2 ⊢; linarith
  have e : fk2 + fk3 * (cos u + sin u) * tan (-B) - (fk2 + fk3 * (cos v + sin v) * tan (-C)) =
      fk3 * ((cos u + sin u) * (tan (-B) - tan (-C)) +
        ((cos u - cos v) + (sin u - sin v)) * tan (-C)) := by ring
  rw [e, abs_mul, abs_of_pos k0]
  have c2 : |cos u + sin u| ≤ 2 := by
    refine (abs_add_le _ _).trans ?_
    linarith [abs_cos_le_one u, abs_sin_le_one u]
  have d2 : |(cos u - cos v) + (sin u - sin v)| ≤ 2 * |u - v| := by
    refine (abs_add_le _ _).trans ?_
    linarith [abs_cos_sub_le u v, abs_sin_sub_le u v]
  have p1 : |(cos u + sin u) * (tan (-B) - tan (-C))| ≤ 2 * (1.1 * |B - C|) := by
    rw [abs_mul]; exact mul_le_mul c2 tl (abs_nonneg _) (by norm_num)
  have p2 : |((cos u - cos v) + (sin u - sin v)) * tan (-C)| ≤ 2 * |u - v| * 1 := by
    rw [abs_mul]; exact mul_le_mul d2 tz (abs_nonneg _) (by positivity)
  have tot := (abs_add_le ((cos u + sin u) * (tan (-B) - tan (-C)))
    (((cos u - cos v) + (sin u - sin v)) * tan (-C))).trans (add_le_add p1 p2)
  have tot' : |(cos u + sin u) * (tan (-B) - tan (-C)) +
      ((cos u - cos v) + (sin u - sin v)) * tan (-C)| ≤ 14000 * w := by
    norm_num at tot b f ⊢; linarith
  calc _ ≤ 2e-7 * (14000 * w) := mul_le_mul k1 tot' (abs_nonneg _) (by norm_num)
    _ ≤ 1 * w := by norm_num; linarith

theorem kSunMotion_eq : kSunMotion = 365250 / (2000 * π) := by
  unfold kSunMotion pi2; rw [div_eq_div_iff (by positivity) (by positivity)]; ring

theorem kSunMotion_pos : 0 < kSunMotion := by rw [kSunMotion_eq]; positivity

/-- Main estimate: measured in days of mean solar motion, the longitude advances by one per day up
to a relative error of 0.053. -/
theorem sun_contract {x y : ℝ} (hx : |millennia x| ≤ 6) (hy : |millennia y| ≤ 6) :
    |kSunMotion * (sunLambda x - sunLambda y) - (x - y)| ≤ 0.053 * |x - y| := by
  have h := sunLambda_rate hx hy
  have e : millennia x - millennia y = (x - y) / 365250 := by unfold millennia; ring
  rw [e] at h
  rw [abs_div, abs_of_pos (by norm_num : (0 : ℝ) < 365250)] at h
  have p1 := Real.pi_gt_d6
  have p2 := Real.pi_lt_d6
  have p0 := Real.pi_pos
  generalize sunLambda x - sunLambda y = s at *
  generalize x - y = d at *
  rw [kSunMotion_eq]
  have e2 : 365250 / (2000 * π) * s - d =
      (365250 * (s - 6283.32 * (d / 365250)) + (6283.32 - 2000 * π) * d) / (2000 * π) := by
    field_simp; ring
  rw [e2, abs_div, abs_of_pos (by positivity : 0 < 2000 * π), div_le_iff₀ (by positivity)]
  refine (abs_add_le _ _).trans ?_
  rw [abs_mul, abs_mul, abs_of_pos (by norm_num : (0 : ℝ) < 365250)]
  have q : |6283.32 - 2000 * π| ≤ 0.14 := by
    rw [abs_le]; norm_num at p1 p2 ⊢; constructor <;> linarith
  have n := abs_nonneg d
  have h2 : |6283.32 - 2000 * π| * |d| ≤ 0.14 * |d| := mul_le_mul_of_nonneg_right q n
  norm_num at h h2 p1 p2 ⊢
  nlinarith

end Verif
