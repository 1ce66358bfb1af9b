import Verif.Lemmas.MoonWave
import Verif.Lemmas.AlphaJet3
import Verif.Lemmas.SunDayPlace
import Verif.Props.CronusPlaces

/-!
# Lemmas: the place of the Moon over two days
-/

namespace Verif
open Real

/-- Coordinates of near directions, declination up to 30.5 degrees. -/
theorem coords_near_moon {l b l' b' d : ℝ} (hb : 0 ≤ cos b) (hb' : 0.863 ≤ cos b') (hp : |b - b'| ≤ π)
    (h : ((direction l b).sub (direction l' b')).norm ≤ d) (hd : d ≤ 0.0001) :
    |b - b'| ≤ 1.0001 * d ∧ ∃ k : ℤ, |l - l' - k * (2 * π)| ≤ 1.16 * d := by
  have d0 : 0 ≤ d := (norm_nonneg' _).trans h
  unfold V3.norm at h
  rw [Real.sqrt_le_left d0] at h
  have e : ((direction l b).sub (direction l' b')).x ^ 2 + ((direction l b).sub (direction l' b')).y ^ 2 +
      ((direction l b).sub (direction l' b')).z ^ 2 =
      2 * (1 - cos (b - b')) + 2 * (cos b * cos b') * (1 - cos (l - l')) := by
    simp only [direction, V3.sub, cos_sub]
    linear_combination (cos b ^ 2) * sin_sq_add_cos_sq l + (cos b' ^ 2) * sin_sq_add_cos_sq l' +
      sin_sq_add_cos_sq b + sin_sq_add_cos_sq b'
  rw [e] at h
  have half : ∀ x, 1 - cos x = 2 * sin (x / 2) ^ 2 := by
    intro x
    have := cos_two_mul (x / 2)
    rw [show 2 * (x / 2) = x by ring] at this
    nlinarith [sin_sq_add_cos_sq (x / 2)]
  rw [half, half] at h
  norm_num at hb' hd
  have c0 : 0 ≤ cos b * cos b' := mul_nonneg hb (by linarith)
  have g1 : |sin ((b - b') / 2)| ≤ d / 2 := by
    refine abs_le_of_sq_le_sq ?_ (by linarith)
    have := mul_nonneg c0 (sq_nonneg (sin ((l - l') / 2)))
    nlinarith
  have r1 := half_small hp g1 (by norm_num; linarith)
  have r2 : |b - b'| ≤ 1.0001 * d := by norm_num at r1 ⊢; linarith
  refine ⟨r2, ?_⟩
  have cb : 0.8628 ≤ cos b := by
    have := (abs_le.mp (abs_cos_sub_le b b')).1
    norm_num at r2 ⊢; linarith
  have cc : 0.7445 ≤ cos b * cos b' := by
    norm_num at cb ⊢; nlinarith
  obtain ⟨k, hk⟩ := near_turn (l - l')
  refine ⟨k, ?_⟩
  have sk : sin ((l - l' - k * (2 * π)) / 2) ^ 2 = sin ((l - l') / 2) ^ 2 := by
    have a := half (l - l' - k * (2 * π))
    have b := half (l - l')
    rw [cos_sub_int_mul_two_pi] at a
    linarith
  have g2 : |sin ((l - l' - k * (2 * π)) / 2)| ≤ 0.5796 * d := by
    refine abs_le_of_sq_le_sq ?_ (by norm_num; linarith)
    rw [sk]
    have q := sq_nonneg (sin ((l - l') / 2))
    have := mul_le_mul_of_nonneg_right cc q
    have q2 := sq_nonneg (sin ((b - b') / 2))
    norm_num at this ⊢
    nlinarith
  have r3 := half_small hk g2 (by norm_num; linarith)
  norm_num at r3 ⊢
  linarith

/-- The place of the Moon in the table of `cronus`, with ranges. -/
theorem place_moon_range (jd : ℝ) (h : |centuries jd| ≤ 20) :
    ∃ ra dec a, place jd "Moon" = .ok (ra, dec, a) ∧ 0 ≤ ra ∧ ra < 2 * π ∧ -(π / 2) ≤ dec ∧ dec ≤ π / 2 ∧
      direction ra dec = turnX (trueObliquity jd)
        (direction (moonLambda jd + nutationInLongitude jd) (lunarLatitude jd)) := by
  have e := moon_place_nutation_twice jd (trueObliquity jd) h
  obtain ⟨r1, r2, r3, r4⟩ := ecl_to_equ_range (lunarLongitude jd + nutationInLongitude jd) (lunarLatitude jd) (trueObliquity jd)
  refine ⟨_, _, (moonPlace jd (nutationInLongitude jd) (trueObliquity jd)).2.2, ?_, r1, r2, r3, r4, ?_⟩
  · unfold place
    rw [nutationPair_eq]
    rfl
  · refine Eq.trans e ?_
    congr 1
    refine direction_congr ?_ (congr_refl _)
    obtain ⟨k, hk⟩ := lunar_longitude_value jd
    obtain ⟨j, hj⟩ := moonLambda_congr jd
    refine ⟨j - k, ?_⟩
    unfold moonLon
    push_cast
    linarith

/-! ### The path -/

/-- Longitude over two days, without the small terms. -/
noncomputable def moonPathL (jd x : ℝ) : ℝ := deg (Mean.moonLongitude (centuries jd)) + deg (481268 / 36525) * x +
  (deg 1e-6 * lonWave (centuries jd) x + deg 1e-6 * lonExtra (centuries jd) + 2 * nutationInLongitude jd)

noncomputable def moonPathB (jd x : ℝ) : ℝ := deg 1e-6 * latWave (centuries jd) x + deg 1e-6 * latExtra (centuries jd)

theorem Jet3.add_const {f f1 f2 f3 : ℝ → ℝ} (j : Jet3 f f1 f2 f3) (c : ℝ) : Jet3 (fun x => f x + c) f1 f2 f3 :=
  ⟨fun x => (j.d1 x).add_const c, j.d2, j.d3⟩

theorem deg_micro : 0 < deg 1e-6 ∧ deg 1e-6 ≤ 1.745330e-8 := by
  unfold deg
  have p := Real.pi_pos
  have q := Real.pi_lt_d6
  constructor
  · positivity
  · norm_num at q ⊢; linarith

theorem micro_le {x c K : ℝ} (h : |x| ≤ c) (hK : 1.745330e-8 * c ≤ K) : |deg 1e-6 * x| ≤ K := by
  obtain ⟨a, b⟩ := deg_micro
  rw [abs_mul, abs_of_pos a]
  exact (mul_le_mul b h (abs_nonneg _) (by norm_num)).trans hK

theorem moon_path {jd : ℝ} (h : |centuries jd| ≤ 19.9) :
    ∃ l1 l2 l3 b1 b2 b3, MoonPath (moonPathL jd) l1 l2 l3 (moonPathB jd) b1 b2 b3 := by
  obtain ⟨f1, f2, f3, jl, u1, u2, u3⟩ := lonWave_jet h
  obtain ⟨g1, g2, g3, jb, v0, v1, v2, v3⟩ := latWave_jet h
  have lin := jet_cubic (deg (Mean.moonLongitude (centuries jd))) (deg (481268 / 36525)) 0 0
  have jl' := lin.add (((jl.smul (deg 1e-6)).add_const (deg 1e-6 * lonExtra (centuries jd))).add_const
    (2 * nutationInLongitude jd))
  have jb' := (jb.smul (deg 1e-6)).add_const (deg 1e-6 * latExtra (centuries jd))
  simp only [zero_mul, mul_zero, add_zero, zero_add] at jl'
  refine ⟨_, _, _, _, _, _, ⟨jl', jb', fun x => ?_, fun x => ?_, fun x => ?_, fun x => ?_, fun x => ?_, fun x => ?_,
    fun x => ?_⟩⟩
  · refine (abs_add_le _ _).trans ((add_le_add_right (micro_le (u1 x) le_rfl) _).trans ?_)
    rw [abs_of_pos (by unfold deg; positivity)]
    unfold deg
    have := Real.pi_lt_d6
    norm_num at this ⊢; linarith
  · exact micro_le (u2 x) (by norm_num)
  · exact micro_le (u3 x) (by norm_num)
  · refine (abs_add_le _ _).trans ((add_le_add (micro_le (v0 x) le_rfl) (micro_le (latExtra_abs _) le_rfl)).trans (by norm_num))
  · exact micro_le (v1 x) (by norm_num)
  · exact micro_le (v2 x) (by norm_num)
  · exact micro_le (v3 x) (by norm_num)

theorem moon_obl {jd : ℝ} (h : |centuries jd| ≤ 19.9) : Obl (cos (trueObliquity jd)) (sin (trueObliquity jd)) := by
  have m : |millennia jd| ≤ 3.02 := by
    rw [millennia_centuries, abs_mul, abs_of_pos (by norm_num : (0 : ℝ) < 10)] at h
    norm_num at h ⊢; linarith
  have s := sin_obliquity m
  have co := cos_obliquity_era m
  obtain ⟨o1, o2⟩ := obliquity_between (m.trans (by norm_num))
  rw [add_zero] at s o1 o2 co
  generalize trueObliquity jd = e at *
  have q := sin_sq_add_cos_sq e
  have p := Real.pi_gt_three
  norm_num at o1 o2
  have c0 : 0 < cos e := cos_pos_of_mem_Ioo ⟨by linarith, by linarith⟩
  have s2 : sin e ^ 2 ≤ 0.4055 ^ 2 := by rw [← sq_abs]; gcongr
  have s3 : 0.377 ≤ sin e := by
    have := sin_gt_sub_cube (x := e) (by linarith)
    norm_num at this ⊢
    have cb : e ^ 3 ≤ 0.4252 ^ 3 := by
      refine pow_le_pow_left₀ (by linarith) ?_ 3
      norm_num; linarith
    norm_num at cb
    nlinarith
  norm_num at s2 s3
  refine ⟨co, ?_, s⟩
  norm_num; nlinarith

theorem cent_step (jd n : ℝ) : centuries (jd + n) = centuries jd + n / 36525 := by unfold centuries; ring

theorem moonPathL_near {jd n : ℝ} (h : |centuries jd| ≤ 19.9) (hn : |n| ≤ 1) :
    |moonLambda (jd + n) + nutationInLongitude (jd + n) - moonPathL jd n| ≤ 8.9e-6 := by
  have m : |millennia jd| ≤ 5.9 := by
    rw [millennia_centuries, abs_mul, abs_of_pos (by norm_num : (0 : ℝ) < 10)] at h
    norm_num at h ⊢; linarith
  have psi := (nutation_day m hn).1
  rw [add_zero] at psi
  have hn' : |n / 36525| ≤ 1 / 36525 := by
    rw [abs_div, abs_of_pos (by norm_num : (0 : ℝ) < 36525)]; gcongr
  have hT : |centuries jd| ≤ 60 := h.trans (by norm_num)
  have hU : |centuries jd + n / 36525| ≤ 60 := (abs_add_le _ _).trans (by norm_num at h hn' ⊢; linarith)
  have w := lonSum_day h hn
  have x := lonExtra_lip hU hT
  obtain ⟨-, -, -, -, k⟩ := args_rate hU hT
  rw [show centuries jd + n / 36525 - centuries jd = n / 36525 by ring] at x k
  rw [polyR_kL1, polyR_kL1] at k
  have e : moonLambda (jd + n) + nutationInLongitude (jd + n) - moonPathL jd n =
      (deg (Mean.moonLongitude (centuries jd + n / 36525)) - deg (Mean.moonLongitude (centuries jd)) -
        dToR 481268 * (n / 36525)) +
      deg 1e-6 * (lonSum (centuries jd + n / 36525) - lonWave (centuries jd) n) +
      deg 1e-6 * (lonExtra (centuries jd + n / 36525) - lonExtra (centuries jd)) +
      2 * (nutationInLongitude (jd + n) - nutationInLongitude jd) := by
    unfold moonLambda moonPeriodic moonPathL
    rw [cent_step, deg_add]
    unfold deg dToR
    ring
  rw [e]
  have a1 : dToR 2 * |n / 36525| ≤ 9.56e-7 := by
    have := deg_rate_le 2
    push_cast at this
    have b := mul_le_mul this hn' (abs_nonneg _) (by norm_num)
    exact b.trans (by norm_num)
  have a2 := micro_le w le_rfl
  have a3 := micro_le (x.trans (mul_le_mul_of_nonneg_left hn' (by norm_num))) le_rfl
  have a4 : |2 * (nutationInLongitude (jd + n) - nutationInLongitude jd)| ≤ 2.6e-6 := by
    rw [abs_mul, abs_of_pos (by norm_num : (0 : ℝ) < 2)]
    unfold arcsec at psi
    have := Real.pi_lt_d4
    norm_num at psi this ⊢; linarith
  refine (abs_add_le _ _).trans ((add_le_add ((abs_add_le _ _).trans (add_le_add ((abs_add_le _ _).trans
    (add_le_add (k.trans a1) a2)) a3)) a4).trans (by norm_num))

theorem moonPathB_near {jd n : ℝ} (h : |centuries jd| ≤ 19.9) (hn : |n| ≤ 1) :
    |lunarLatitude (jd + n) - moonPathB jd n| ≤ 2.1e-5 := by
  have hn' : |n / 36525| ≤ 1 / 36525 := by
    rw [abs_div, abs_of_pos (by norm_num : (0 : ℝ) < 36525)]; gcongr
  have hT : |centuries jd| ≤ 60 := h.trans (by norm_num)
  have hU : |centuries jd + n / 36525| ≤ 60 := (abs_add_le _ _).trans (by norm_num at h hn' ⊢; linarith)
  have w := latSum_day h hn
  have x := latExtra_lip hU hT
  rw [show centuries jd + n / 36525 - centuries jd = n / 36525 by ring] at x
  have e : lunarLatitude (jd + n) - moonPathB jd n =
      deg 1e-6 * (latSum (centuries jd + n / 36525) - latWave (centuries jd) n) +
      deg 1e-6 * (latExtra (centuries jd + n / 36525) - latExtra (centuries jd)) := by
    have c : jcent (jd + n) = centuries jd + n / 36525 := cent_step jd n
    rw [lunarLatitude_eq, c]
    unfold moonPathB latExtra deg dToR
    ring
  rw [e]
  refine (abs_add_le _ _).trans ((add_le_add (micro_le w le_rfl)
    (micro_le (x.trans (mul_le_mul_of_nonneg_left hn' (by norm_num))) le_rfl)).trans (by norm_num))

/-- Right ascension (unreduced) and declination of the Moon as functions of the time, near smooth functions with bounded
derivatives. -/
theorem moon_day_jet {jd : ℝ} (h : |centuries jd| ≤ 19.9) :
    ∃ ra dec A D : ℝ → ℝ, (∀ n, |n| ≤ 1 → (∃ y a, place (jd + n) "Moon" = .ok (y, dec n, a) ∧ 0 ≤ y ∧
        y < 2 * π ∧ ∃ k : ℤ, y = ra n + k * (2 * π)) ∧ |ra n - A n| ≤ 3.6e-5 ∧ |dec n - D n| ≤ 3.2e-5) ∧
      (∃ f1 f2 f3, Jet3 A f1 f2 f3 ∧ (∀ x, |f1 x| ≤ 0.361) ∧ (∀ x, |f2 x| ≤ 0.064) ∧ ∀ x, |f3 x| ≤ 0.048) ∧
      ∃ f1 f2 f3, Jet3 D f1 f2 f3 ∧ (∀ x, |f1 x| ≤ 0.166) ∧ (∀ x, |f2 x| ≤ 0.074) ∧ ∀ x, |f3 x| ≤ 0.0512 := by
  obtain ⟨l1, l2, l3, b1, b2, b3, p⟩ := moon_path h
  have o := moon_obl h
  obtain ⟨a1, a2, a3, ja, A1, A2, A3⟩ := alpha_jet p o
  obtain ⟨d1, d2, d3, jd', D⟩ := delta_jet p o
  have m : |millennia jd| ≤ 5.9 := by
    rw [millennia_centuries, abs_mul, abs_of_pos (by norm_num : (0 : ℝ) < 10)] at h
    norm_num at h ⊢; linarith
  set eps := trueObliquity jd with heps
  have key : ∀ n, |n| ≤ 1 → ∃ ra dec, (∃ y a, place (jd + n) "Moon" = .ok (y, dec, a) ∧ 0 ≤ y ∧
        y < 2 * π ∧ ∃ k : ℤ, y = ra + k * (2 * π)) ∧
        |ra - alphaI (cos eps) (tan (moonPathB jd n) * sin eps) (moonPathL jd n)| ≤ 3.6e-5 ∧
        |dec - arcsin (sin (moonPathB jd n) * cos eps + cos (moonPathB jd n) * sin eps * sin (moonPathL jd n))| ≤ 3.2e-5 := by
    intro n hn
    have hc : |centuries (jd + n)| ≤ 20 := by
      rw [cent_step]
      have hn' : |n / 36525| ≤ 1 / 36525 := by
        rw [abs_div, abs_of_pos (by norm_num : (0 : ℝ) < 36525)]; gcongr
      exact (abs_add_le _ _).trans (by norm_num at h hn' ⊢; linarith)
    obtain ⟨y, dec, a, h1, y0, y1, e0, e1, hd⟩ := place_moon_range (jd + n) hc
    have hobl := obliquity_day m hn
    rw [add_zero, ← heps] at hobl
    have tb := (tan_jet_bounds o.s1 (p.b0 n) (p.b1 n) (p.b2 n) (p.b3 n)).1
    have X0 := alX_pos_moon o.c0 o.c1 tb (moonPathL jd n)
    have D0 : 0 < alD (cos eps) (tan (moonPathB jd n) * sin eps) (moonPathL jd n) := by
      refine lt_of_lt_of_le (by norm_num) (den_bounds (l1 := 0) (l2 := 0) (t1 := 0) (t2 := 0) o.c0 o.c1
        (sin_sq_add_cos_sq (moonPathL jd n)) (abs_sin_le_one _)
        (abs_cos_le_one _) (by norm_num) (by norm_num) tb (by norm_num) (by norm_num)).1
    have cb : 0 < cos (moonPathB jd n) := by
      have q := abs_le.mp (p.b0 n)
      have := pi_gt_three
      norm_num at q
      exact cos_pos_of_mem_Ioo ⟨by linarith [q.1], by linarith [q.2]⟩
    have ideal := alpha_direction_of X0 D0 cb
    have dist : ((direction y dec).sub (direction (alphaI (cos eps) (tan (moonPathB jd n) * sin eps) (moonPathL jd n))
        (arcsin (sin (moonPathB jd n) * cos eps + cos (moonPathB jd n) * sin eps * sin (moonPathL jd n))))).norm ≤ 3.1e-5 := by
      rw [ideal, hd]
      refine (norm_triangle _ (turnX eps (direction (moonLambda (jd + n) + nutationInLongitude (jd + n))
        (lunarLatitude (jd + n)))) _).trans ?_
      refine (add_le_add ((turnX_lip _ _ _ _).trans hobl) ((le_of_eq (turnX_isometry _ _ _)).trans
        ((direction_lip _ _ _ _).trans (add_le_add (moonPathL_near h hn) (moonPathB_near h hn))))).trans ?_
      unfold arcsec
      have := Real.pi_lt_d4
      norm_num at this ⊢
      linarith
    have Z0 := (D n).1
    generalize sin (moonPathB jd n) * cos eps + cos (moonPathB jd n) * sin eps * sin (moonPathL jd n) = Z at *
    have cd : 0.863 ≤ cos (arcsin Z) := by
      rw [Real.cos_arcsin, Real.le_sqrt' (by norm_num)]
      have : Z ^ 2 ≤ 0.5046 ^ 2 := by rw [← sq_abs]; gcongr
      norm_num at this ⊢; linarith
    have i1 := neg_pi_div_two_le_arcsin Z
    have i2 := arcsin_le_pi_div_two Z
    obtain ⟨f1, k, f2⟩ := coords_near_moon (cos_nonneg_of_neg_pi_div_two_le_of_le e0 e1) cd
      (by rw [abs_le]; constructor <;> linarith) dist (by norm_num)
    refine ⟨y - k * (2 * π), dec, ⟨y, a, h1, y0, y1, k, by ring⟩, ?_, f1.trans (by norm_num)⟩
    rw [show y - k * (2 * π) - alphaI (cos eps) (tan (moonPathB jd n) * sin eps) (moonPathL jd n) =
      y - alphaI (cos eps) (tan (moonPathB jd n) * sin eps) (moonPathL jd n) - k * (2 * π) by ring]
    exact f2.trans (by norm_num)
  choose! ra dec hrd using key
  exact ⟨ra, dec, _, _, hrd, ⟨_, _, _, ja, A1, A2, A3⟩, ⟨_, _, _, jd', fun x => (D x).2.1, fun x => (D x).2.2.1,
    fun x => (D x).2.2.2⟩⟩

end Verif
