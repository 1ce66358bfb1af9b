import Verif.Lemmas.VenusPublished
import Verif.Props.SunPublished

/-!
# The passes of `geocentric_planet` for Venus on 1992 December 20, and the reduction to the equator
-/

namespace Verif
open Real

set_option exponentiation.threshold 500
set_option maxRecDepth 100000

theorem arctan2_of_polar {r a : ℝ} (hr : 0 < r) (h0 : -π < a) (h1 : a ≤ π) : arctan2 (r * sin a) (r * cos a) = a := by
  have e : (⟨r * cos a, r * sin a⟩ : ℂ) = ↑r * (Complex.cos a + Complex.sin a * Complex.I) := by
    apply Complex.ext <;> simp [Complex.cos_ofReal_re, Complex.sin_ofReal_re, Complex.cos_ofReal_im, Complex.sin_ofReal_im]
  unfold arctan2
  rw [e, Complex.arg_mul_cos_add_sin_mul_I hr ⟨h0, h1⟩]

theorem Polar.vec_lon (q : Polar) (hr : 0 < q.r) (hl : |q.l| ≤ 100 * 10 ^ 12) (hb : |q.b| ≤ 80 * 10 ^ 12) :
    q.vec.lon = dToR (q.l / 10 ^ 12) ∧ q.vec.lat = dToR (q.b / 10 ^ 12) ∧ √(q.vec.x ^ 2 + q.vec.y ^ 2) = q.r / 10 ^ 12 * cos (dToR (q.b / 10 ^ 12)) := by
  have p := pi_pos
  have r0 : (0 : ℝ) < q.r / 10 ^ 12 := by
    have : (0 : ℝ) < q.r := by exact_mod_cast hr
    positivity
  have l' : |(q.l : ℝ)| ≤ 100 * 10 ^ 12 := by exact_mod_cast hl
  have b' : |(q.b : ℝ)| ≤ 80 * 10 ^ 12 := by exact_mod_cast hb
  rw [abs_le] at l' b'
  have l1 : -π < dToR (q.l / 10 ^ 12) ∧ dToR (q.l / 10 ^ 12) ≤ π := by
    unfold dToR
    constructor
    · rw [lt_div_iff₀ (by norm_num)]
      have : (-100 : ℝ) ≤ q.l / 10 ^ 12 := by rw [le_div_iff₀ (by norm_num)]; linarith [l'.1]
      nlinarith
    · rw [div_le_iff₀ (by norm_num)]
      have : q.l / 10 ^ 12 ≤ (100 : ℝ) := by rw [div_le_iff₀ (by norm_num)]; linarith [l'.2]
      nlinarith
  have b1 : -(π / 2) < dToR (q.b / 10 ^ 12) ∧ dToR (q.b / 10 ^ 12) < π / 2 := by
    unfold dToR
    constructor
    · rw [lt_div_iff₀ (by norm_num)]
      have : (-80 : ℝ) ≤ q.b / 10 ^ 12 := by rw [le_div_iff₀ (by norm_num)]; linarith [b'.1]
      nlinarith
    · rw [div_lt_iff₀ (by norm_num)]
      have : q.b / 10 ^ 12 ≤ (80 : ℝ) := by rw [div_le_iff₀ (by norm_num)]; linarith [b'.2]
      nlinarith
  have cb : 0 < cos (dToR (q.b / 10 ^ 12)) := cos_pos_of_mem_Ioo b1
  have e : √(q.vec.x ^ 2 + q.vec.y ^ 2) = q.r / 10 ^ 12 * cos (dToR (q.b / 10 ^ 12)) := by
    rw [← Real.sqrt_sq (by positivity : 0 ≤ q.r / 10 ^ 12 * cos (dToR (q.b / 10 ^ 12)))]
    congr 1
    simp only [Polar.vec, V3.scale, direction]
    linear_combination ((q.r : ℝ) / 10 ^ 12 * cos (dToR (q.b / 10 ^ 12))) ^ 2 * sin_sq_add_cos_sq (dToR (q.l / 10 ^ 12))
  refine ⟨?_, ?_, e⟩
  · unfold V3.lon
    rw [show q.vec.y = (q.r / 10 ^ 12 * cos (dToR (q.b / 10 ^ 12))) * sin (dToR (q.l / 10 ^ 12)) by
        simp only [Polar.vec, V3.scale, direction]; ring,
      show q.vec.x = (q.r / 10 ^ 12 * cos (dToR (q.b / 10 ^ 12))) * cos (dToR (q.l / 10 ^ 12)) by
        simp only [Polar.vec, V3.scale, direction]; ring]
    exact arctan2_of_polar (by positivity) l1.1 l1.2
  · unfold V3.lat
    rw [e]
    exact arctan2_of_polar r0 (by linarith [b1.1]) (by linarith [b1.2])

/-- Angles that are near each other in the sense of `diff_angle`, one of them far from the cut. -/
theorem near_of_diffAngle {a b e : ℝ} (ha0 : -π < a) (ha1 : a ≤ π) (hb : |b| ≤ 2) (he : e ≤ 1) (h : |diffAngle a b| ≤ e) :
    |a - b| ≤ e := by
  have p := pi_gt_three
  unfold diffAngle pi2 at h
  simp only at h
  rw [abs_le] at *
  split_ifs at h <;> constructor <;> linarith [h.1, h.2, hb.1, hb.2]

theorem lon_lat_near {v : V3} {q : Polar} {e : ℝ} (hr : 900000000000 ≤ q.r) (hl : |q.l| ≤ 60 * 10 ^ 12) (hb : |q.b| ≤ 10 * 10 ^ 12)
    (he : e ≤ 0.001) (h : (v.sub q.vec).norm ≤ e) :
    |v.lon - dToR (q.l / 10 ^ 12)| ≤ π / 2 * (e / 0.88) ∧ |v.lat - dToR (q.b / 10 ^ 12)| ≤ π / 2 * (e / 0.88) := by
  obtain ⟨h1, h2, h3⟩ := q.vec_lon (by omega) (hl.trans (by norm_num)) (hb.trans (by norm_num))
  have e0 : 0 ≤ e := (norm_nonneg' _).trans h
  have p := pi_pos
  have p4 := pi_lt_d2
  have l' : |(q.l : ℝ)| ≤ 60 * 10 ^ 12 := by exact_mod_cast hl
  have b' : |(q.b : ℝ)| ≤ 10 * 10 ^ 12 := by exact_mod_cast hb
  have r' : (900000000000 : ℝ) ≤ q.r := by exact_mod_cast hr
  have hl2 : |dToR (q.l / 10 ^ 12)| ≤ 2 := by
    rw [show dToR ((q.l : ℝ) / 10 ^ 12) = q.l * (π / (180 * 10 ^ 12)) by unfold dToR; ring, abs_mul,
      abs_of_pos (by positivity : 0 < π / (180 * 10 ^ 12))]
    calc |(q.l : ℝ)| * (π / (180 * 10 ^ 12)) ≤ 60 * 10 ^ 12 * (π / (180 * 10 ^ 12)) := by gcongr
      _ = π / 3 := by ring
      _ ≤ 2 := by norm_num at p4 ⊢; linarith
  have hb2 : |dToR (q.b / 10 ^ 12)| ≤ 0.18 := by
    rw [show dToR ((q.b : ℝ) / 10 ^ 12) = q.b * (π / (180 * 10 ^ 12)) by unfold dToR; ring, abs_mul,
      abs_of_pos (by positivity : 0 < π / (180 * 10 ^ 12))]
    calc |(q.b : ℝ)| * (π / (180 * 10 ^ 12)) ≤ 10 * 10 ^ 12 * (π / (180 * 10 ^ 12)) := by gcongr
      _ = π / 18 := by ring
      _ ≤ 0.18 := by norm_num at p4 ⊢; linarith
  have cb : 0.983 ≤ cos (dToR (q.b / 10 ^ 12)) := by
    have a := one_sub_sq_div_two_le_cos (x := dToR (q.b / 10 ^ 12))
    have b : (dToR (q.b / 10 ^ 12)) ^ 2 ≤ 0.18 ^ 2 := sq_le_sq' (abs_le.1 hb2).1 (abs_le.1 hb2).2
    norm_num at b ⊢; linarith
  have rho' : 0.884 ≤ √(q.vec.x ^ 2 + q.vec.y ^ 2) := by
    rw [h3]
    have : (0.9 : ℝ) ≤ q.r / 10 ^ 12 := by rw [le_div_iff₀ (by norm_num)]; norm_num; linarith
    refine le_trans ?_ (mul_le_mul this cb (by norm_num) (by linarith))
    norm_num
  have hsq : (v.x - q.vec.x) ^ 2 + (v.y - q.vec.y) ^ 2 + (v.z - q.vec.z) ^ 2 ≤ e ^ 2 := by
    have : (v.sub q.vec).norm ^ 2 ≤ e ^ 2 := pow_le_pow_left₀ (norm_nonneg' _) h 2
    unfold V3.norm at this
    rw [Real.sq_sqrt (by positivity)] at this
    exact this
  -- the distances from the axis
  have hrho : (√(v.x ^ 2 + v.y ^ 2) - √(q.vec.x ^ 2 + q.vec.y ^ 2)) ^ 2 ≤ (v.x - q.vec.x) ^ 2 + (v.y - q.vec.y) ^ 2 := by
    have s1 := Real.sq_sqrt (by positivity : 0 ≤ v.x ^ 2 + v.y ^ 2)
    have s2 := Real.sq_sqrt (by positivity : 0 ≤ q.vec.x ^ 2 + q.vec.y ^ 2)
    have c : v.x * q.vec.x + v.y * q.vec.y ≤ √(v.x ^ 2 + v.y ^ 2) * √(q.vec.x ^ 2 + q.vec.y ^ 2) := by
      rw [← Real.sqrt_mul (by positivity)]
      refine Real.le_sqrt_of_sq_le ?_
      nlinarith [sq_nonneg (v.x * q.vec.y - v.y * q.vec.x)]
    nlinarith
  have rho : 0.88 ≤ √(v.x ^ 2 + v.y ^ 2) := by
    have : |√(v.x ^ 2 + v.y ^ 2) - √(q.vec.x ^ 2 + q.vec.y ^ 2)| ≤ e := abs_le_of_sq_le_sq (by nlinarith [sq_nonneg (v.z - q.vec.z)]) e0
    rw [abs_le] at this
    norm_num at *
    linarith [this.1]
  have sv : (0.88 : ℝ) ^ 2 ≤ v.x ^ 2 + v.y ^ 2 := by
    have := pow_le_pow_left₀ (by norm_num) rho 2
    rwa [Real.sq_sqrt (by positivity)] at this
  have sq' : (0.88 : ℝ) ^ 2 ≤ q.vec.x ^ 2 + q.vec.y ^ 2 := by
    have := pow_le_pow_left₀ (by norm_num : (0 : ℝ) ≤ 0.88) (le_trans (by norm_num) rho') 2
    rwa [Real.sq_sqrt (by positivity)] at this
  have small : π / 2 * (e / 0.88) ≤ 1 := by
    norm_num at *
    nlinarith
  constructor
  · rw [← h1] at hl2 ⊢
    have a1 : -π < v.lon ∧ v.lon ≤ π := Complex.arg_mem_Ioc _
    refine near_of_diffAngle a1.1 a1.2 hl2 small (arctan2_near (by norm_num) sv sq' e0 ?_)
    linarith [sq_nonneg (v.z - q.vec.z)]
  · rw [← h2] at hb2 ⊢
    have a1 : -π < v.lat ∧ v.lat ≤ π := Complex.arg_mem_Ioc _
    refine near_of_diffAngle a1.1 a1.2 (hb2.trans (by norm_num)) small (arctan2_near (by norm_num) ?_ ?_ e0 ?_)
    · rw [Real.sq_sqrt (by positivity)]; linarith [sq_nonneg v.z]
    · rw [Real.sq_sqrt (by positivity)]; linarith [sq_nonneg q.vec.z]
    · linarith

/-- If the second pass does not end the loop, the time is that of the third or of a later one. -/
theorem loop_third {p : String} {c : Tables} {jd : ℝ} (hp : p ∈ knownPlanets) (hE : p ≠ "Earth") (hc : HasTables p c)
    (h : |millennia jd| ≤ 5.9) {x : ℝ} (wx : Window jd x) (ex : Emitted c earthTables jd x) {delta : ℝ}
    (hd1 : delta ≤ 14) (h2 : 2 * π * delta ≤ |diffAngle (sep c earthTables (jd - lightDay * (sep c earthTables jd).norm)).lon
      (sep c earthTables jd).lon|) (n : ℕ) (hd : 0.0184 * 0.00056 ^ (n + 1) < delta) :
    ∃ t', Window jd t' ∧ |t' - x| ≤ 0.00056 ^ 2 * |jd - x| ∧
      geocentricLoop vsopDict jd p delta (n + 3) jd (-100) =
        .ok ((sep c earthTables t').lon, (sep c earthTables t').lat) := by
  have hp0 := Real.pi_pos
  have hp4 := Real.pi_lt_d2
  have wj : Window jd jd := ⟨by norm_num, le_rfl⟩
  have w1 := step_window hp hE hc h wj
  have w2 := step_window hp hE hc h w1
  have b := (sep_bounds hp hE hc (window_era h wj)).2.2
  have c1 := step_contract hp hc h w1 wj
  have c2 := step_contract hp hc h wj wx
  have c3 := step_contract hp hc h w1 wx
  rw [← show x = jd - lightDay * (sep c earthTables x).norm from ex] at c2 c3
  rw [loop_step hc, if_neg (by
    rw [not_lt]
    refine le_trans ?_ (first_pass _).1
    have : 2 * π * delta ≤ 2 * π * 14 := by gcongr
    norm_num at hp4; linarith), loop_step hc, if_neg (not_lt.mpr h2)]
  obtain ⟨t', a1, a2, a3⟩ := loop_near hp hE hc h wx ex delta n _ _ w2 w1 rfl (by
    have : |jd - lightDay * (sep c earthTables jd).norm - jd| ≤ 0.182 := by
      have n0 := norm_nonneg' (sep c earthTables jd)
      rw [show ∀ a b : ℝ, a - b - a = -b by intros; ring, abs_neg]
      unfold lightDay
      rw [abs_of_nonneg (by positivity)]
      norm_num at b ⊢; linarith
    have k0 := c1.trans (mul_le_mul_of_nonneg_left this (by norm_num))
    have k : π / 2 * (0.0968 * (0.00056 ^ n * |jd - lightDay * (sep c earthTables (jd - lightDay * (sep c earthTables jd).norm)).norm -
        (jd - lightDay * (sep c earthTables jd).norm)|) / 0.24) ≤
        π / 2 * (0.0968 * (0.00056 ^ n * (0.00056 * 0.182)) / 0.24) := by gcongr
    refine lt_of_le_of_lt k ?_
    rw [show π / 2 * (0.0968 * (0.00056 ^ n * (0.00056 * 0.182)) / 0.24) =
      2 * π * ((0.0968 * (0.00056 ^ (n + 1) * 0.182) / 0.24) / 4) by ring]
    refine mul_lt_mul_of_pos_left (lt_of_le_of_lt ?_ hd) (by positivity)
    have : (0 : ℝ) ≤ 0.00056 ^ (n + 1) := by positivity
    generalize (0.00056 : ℝ) ^ (n + 1) = q at *
    norm_num; linarith)
  refine ⟨t', a1, a2.trans (c3.trans ?_), a3⟩
  rw [pow_two, mul_assoc]
  exact mul_le_mul_of_nonneg_left c2 (by norm_num)

theorem venusTables_ok : HasTables "Venus" venusTables := hasTables_venus

theorem venus_era : |millennia 2448976.5| ≤ 5.9 := by unfold millennia; norm_num [abs_le]

/-- The second pass does not end the loop. -/
theorem venus_second : 2 * π * (1 / 86400) ≤ |diffAngle
    (sep venusTables earthTables (2448976.5 - lightDay * (sep venusTables earthTables 2448976.5).norm)).lon
    (sep venusTables earthTables 2448976.5).lon| := by
  have hp : "Venus" ∈ knownPlanets := by decide
  have wj : Window 2448976.5 2448976.5 := ⟨by norm_num, le_rfl⟩
  have p0 := pi_gt_d20
  have p1 := pi_lt_d20
  -- the first pass
  have y1 := sep_lip hp venusTables_ok (window_era venus_era wj) (s := vYt) (by rw [millennia_vY]; norm_num [abs_le])
  have y2 : |2448976.5 - vYt| ≤ 1e-7 := by unfold vYt; norm_num [abs_le]
  have y3 := norm_triangle (sep venusTables earthTables 2448976.5) (sep venusTables earthTables vYt)
    (Polar.vec ⟨-46917234310375, -2084670738224, 910845957086⟩)
  have y4 : ((sep venusTables earthTables 2448976.5).sub (Polar.vec ⟨-46917234310375, -2084670738224, 910845957086⟩)).norm ≤ 1.1e-8 := by
    have := vY_sep
    change ((sep venusTables earthTables 2448976.5).sub (sep venusTables earthTables vYt)).norm ≤ _ at y1
    norm_num at *
    linarith
  have y5 := (lon_lat_near (by norm_num) (by norm_num) (by norm_num) (by norm_num) y4).1
  have y6 := abs_norm_sub (sep venusTables earthTables 2448976.5) (Polar.vec ⟨-46917234310375, -2084670738224, 910845957086⟩)
  have yn : (Polar.vec ⟨-46917234310375, -2084670738224, 910845957086⟩).norm = 0.910845957086 := by
    unfold Polar.vec
    rw [norm_scale, norm_direction]
    norm_num
  rw [yn] at y6
  -- the second pass
  have w1 := step_window hp (by decide) venusTables_ok venus_era wj
  have x1 := sep_lip hp venusTables_ok (window_era venus_era w1) (s := vXt) (by rw [millennia_vX]; norm_num [abs_le])
  change ((sep venusTables earthTables (2448976.5 - lightDay * (sep venusTables earthTables 2448976.5).norm)).sub
    (sep venusTables earthTables vXt)).norm ≤ 0.0968 * |2448976.5 - lightDay * (sep venusTables earthTables 2448976.5).norm - vXt| at x1
  have x2 : |2448976.5 - lightDay * (sep venusTables earthTables 2448976.5).norm - vXt| ≤ 1e-6 := by
    have z := y6.trans y4
    generalize (sep venusTables earthTables 2448976.5).norm = m at *
    unfold vXt lightDay
    rw [abs_le] at *
    norm_num at *
    constructor <;> linarith [z.1, z.2]
  generalize 2448976.5 - lightDay * (sep venusTables earthTables 2448976.5).norm = t at *
  have x3 := norm_triangle (sep venusTables earthTables t) (sep venusTables earthTables vXt)
    (Polar.vec ⟨-46923283413497, -2084838972710, 910883253459⟩)
  have x4 : ((sep venusTables earthTables t).sub (Polar.vec ⟨-46923283413497, -2084838972710, 910883253459⟩)).norm ≤ 1e-6 := by
    have := vX_sep
    norm_num at *
    linarith
  have x5 := (lon_lat_near (by norm_num) (by norm_num) (by norm_num) (by norm_num) x4).1
  have k := diff_angle_congr (sep venusTables earthTables t).lon (sep venusTables earthTables 2448976.5).lon
  generalize (sep venusTables earthTables t).lon = a at *
  generalize (sep venusTables earthTables 2448976.5).lon = b at *
  have hba : 1e-4 ≤ b - a ∧ b - a ≤ 1 := by
    unfold dToR at *
    rw [abs_le] at *
    clear y1 y2 y3 y4 y6 yn x1 x2 x3 x4 w1 wj k
    push_cast at *
    norm_num at *
    constructor <;> linarith [x5.1, x5.2, y5.1, y5.2]
  have e : diffAngle a b = b - a := by
    unfold diffAngle
    simp only
    norm_num at hba p0
    rw [if_neg (by linarith : ¬ b < a), if_neg (by linarith)]
  rw [e, abs_of_nonneg (by norm_num at hba ⊢; linarith)]
  norm_num at *
  linarith

/-- Longitude and latitude when the loop ends. -/
theorem venus_loop : ∃ l b, geocentricLoop vsopDict 2448976.5 "Venus" (1 / 86400) 20 2448976.5 (-100) = .ok (l, b) ∧
    |l - dToR (((-46923283413497 : ℤ) : ℝ) / 10 ^ 12)| ≤ 7.7e-9 ∧ |b - dToR (((-2084838972710 : ℤ) : ℝ) / 10 ^ 12)| ≤ 7.7e-9 := by
  have hp : "Venus" ∈ knownPlanets := by decide
  have p1 := pi_lt_d20
  obtain ⟨x, ex, x1, x2, -⟩ := emitted_exists hp (by decide) venusTables_ok venus_era
  obtain ⟨t, wt, ht, e⟩ := loop_third hp (by decide) venusTables_ok venus_era ⟨x1, x2⟩ ex (by norm_num) venus_second 17
    (by norm_num)
  refine ⟨_, _, e, ?_⟩
  have ww : Window 2448976.5 vXt := by unfold Window vXt; constructor <;> norm_num
  have c := step_contract hp venusTables_ok venus_era ⟨x1, x2⟩ ww
  rw [← show x = 2448976.5 - lightDay * (sep venusTables earthTables x).norm from ex] at c
  change |x - (2448976.5 - lightDay * (sep venusTables earthTables vXt).norm)| ≤ 0.00056 * |x - vXt| at c
  have y6 := abs_norm_sub (sep venusTables earthTables vXt) (Polar.vec ⟨-46923283413497, -2084838972710, 910883253459⟩)
  have yn : (Polar.vec ⟨-46923283413497, -2084838972710, 910883253459⟩).norm = 0.910883253459 := by
    unfold Polar.vec
    rw [norm_scale, norm_direction]
    norm_num
  rw [yn] at y6
  have z := y6.trans vX_sep
  have d : |2448976.5 - lightDay * (sep venusTables earthTables vXt).norm - vXt| ≤ 3.6e-8 := by
    generalize (sep venusTables earthTables vXt).norm = m at *
    unfold vXt lightDay
    rw [abs_le] at *
    norm_num at *
    constructor <;> linarith [z.1, z.2]
  have xv : |x - vXt| ≤ 3.61e-8 := by
    have := abs_sub_le x (2448976.5 - lightDay * (sep venusTables earthTables vXt).norm) vXt
    norm_num at *
    linarith
  have tv : |t - vXt| ≤ 3.8e-8 := by
    have a := abs_sub_le t x vXt
    have b : |2448976.5 - x| ≤ 0.0054 := by
      have g : |2448976.5 - vXt| ≤ 0.0053 := by unfold vXt; norm_num [abs_le]
      have := abs_sub_le 2448976.5 vXt x
      rw [abs_sub_comm vXt x] at this
      norm_num at *
      linarith
    norm_num at *
    linarith
  have s1 := sep_lip hp venusTables_ok (window_era venus_era wt) (s := vXt) (by rw [millennia_vX]; norm_num [abs_le])
  change ((sep venusTables earthTables t).sub (sep venusTables earthTables vXt)).norm ≤ 0.0968 * |t - vXt| at s1
  have s3 := norm_triangle (sep venusTables earthTables t) (sep venusTables earthTables vXt)
    (Polar.vec ⟨-46923283413497, -2084838972710, 910883253459⟩)
  have s4 : ((sep venusTables earthTables t).sub (Polar.vec ⟨-46923283413497, -2084838972710, 910883253459⟩)).norm ≤ 4.3e-9 := by
    have := vX_sep
    norm_num at *
    linarith
  have s5 := lon_lat_near (by norm_num) (by norm_num) (by norm_num) (by norm_num) s4
  have f : π / 2 * (4.3e-9 / 0.88) ≤ 7.7e-9 := by norm_num at p1 ⊢; linarith
  exact ⟨s5.1.trans f, s5.2.trans f⟩

/-! ### Reduction to the equator -/

/-- The angle of `n` units of `1e-12` degree. -/
noncomputable def angE (n : ℤ) : ℝ := dToR (n / 10 ^ 12)

theorem angE_add (a b : ℤ) : angE (a + b) = angE a + angE b := by unfold angE dToR; push_cast; ring
theorem angE_sub (a b : ℤ) : angE (a - b) = angE a - angE b := by unfold angE dToR; push_cast; ring
theorem sin_angE_quarter (a : ℤ) : sin (angE (a + 90000000000000)) = cos (angE a) := by
  rw [angE_add, show angE 90000000000000 = π / 2 by unfold angE dToR; push_cast; ring, sin_add_pi_div_two]

/-- The components of the turned direction `l`, `b` minus those of the direction `a`, `d`, in units of `1e-20`. -/
def turnedX (l b a d : ℤ) : List Wave :=
  [(50000000000000000000, l + b), (50000000000000000000, l - b), (-50000000000000000000, a + d), (-50000000000000000000, a - d)]
def turnedY (l b e a d : ℤ) : List Wave :=
  [(25000000000000000000, l + b + e), (25000000000000000000, l + b - e), (25000000000000000000, l - b + e),
   (25000000000000000000, l - b - e), (-50000000000000000000, b - e + 90000000000000), (50000000000000000000, b + e + 90000000000000),
   (-50000000000000000000, a + d), (-50000000000000000000, a - d)]
def turnedZ (l b e d : ℤ) : List Wave :=
  [(25000000000000000000, l - e + b + 90000000000000), (25000000000000000000, l - e - b + 90000000000000),
   (-25000000000000000000, l + e + b + 90000000000000), (-25000000000000000000, l + e - b + 90000000000000),
   (50000000000000000000, b + e), (50000000000000000000, b - e), (-100000000000000000000, d)]

theorem waveS_cons (f : ℝ → ℝ) (a : ℤ) (n : ℤ) (l : List Wave) : waveS f ((a, n) :: l) = a * f (angE n) + waveS f l := by
  simp [waveS, angE]

theorem waveS_nil (f : ℝ → ℝ) : waveS f [] = 0 := rfl

theorem turned_near {l b e a d : ℤ} {w : ℕ} (hx : nearN 0 w ((turnedX l b a d).map cosRow) = true)
    (hy : nearN 0 w ((turnedY l b e a d).map sinRow) = true) (hz : nearN 0 w ((turnedZ l b e d).map sinRow) = true) :
    ((turnX (angE e) (direction (angE l) (angE b))).sub (direction (angE a) (angE d))).norm ≤ 1.8 * (((w : ℝ) + 3000) / 10 ^ 20) := by
  refine norm_le_of (by positivity) (wave20 ?_ (cos_near hx)) (wave20 ?_ (sin_near hy)) (wave20 ?_ (sin_near hz))
  · simp only [turnedX, waveS_cons, waveS_nil, angE_add, angE_sub, cos_add, cos_sub, turnX, direction, V3.sub]
    push_cast
    ring
  · simp only [turnedY, waveS_cons, waveS_nil, sin_angE_quarter]
    simp only [angE_add, angE_sub, cos_add, cos_sub, sin_add, sin_sub, turnX, direction, V3.sub]
    push_cast
    ring
  · simp only [turnedZ, waveS_cons, waveS_nil, sin_angE_quarter]
    simp only [angE_add, angE_sub, cos_add, cos_sub, sin_add, sin_sub, turnX, direction, V3.sub]
    push_cast
    ring

theorem vX_final : ((turnX (angE 23439669000000) (direction (angE (-46918655987329)) (angE (-2084823597013)))).sub
    (direction (angE 316172725000000) (angE (-18888011111111)))).norm ≤ 1.8 * (((440000000000 : ℕ) + 3000 : ℝ) / 10 ^ 20) :=
  turned_near (by decide +kernel) (by decide +kernel) (by decide +kernel)

theorem vX_cos : nearN 684228388631 10000 [cosRow (1000000000000, -46825045535129)] = true := by decide +kernel
theorem vX_sin : nearN (-729267791824) 10000 [sinRow (1000000000000, -46825045535129)] = true := by decide +kernel

/-! ### The heliocentric place -/

theorem pval_lip1 {c : List (List Term)} (h : pSpeed 1 c ≤ 12000 * 10 ^ 22) {t u : ℝ} (ht : |t| ≤ 1) (hu : |u| ≤ 1) :
    |pval c t - pval c u| ≤ 12000 * |t - u| := by
  refine (pval_lip c (T := 1) (by simpa using ht) (by simpa using hu)).trans (mul_le_mul_of_nonneg_right ?_ (abs_nonneg _))
  have : (pSpeed 1 c : ℝ) ≤ (12000 * 10 ^ 22 : ℕ) := by exact_mod_cast h
  rw [div_le_iff₀ (by positivity)]
  exact this.trans (by norm_num)

theorem venus_place :
    |poisson Data.venusL (millennia 2448976.5) - (deg 26.114119448501 + ((-11 : ℤ) : ℝ) * (2 * π))| ≤ 4e-9 ∧
    |poisson Data.venusB (millennia 2448976.5) - deg (-2.620603126759)| ≤ 4e-9 ∧
    |poisson Data.venusR (millennia 2448976.5) - 0.724601675970| ≤ 4e-9 := by
  have eT : millennia 2448976.5 = -5137 / 730500 := by unfold millennia; norm_num
  have e1 := pval_lip1 (c := Data.venusL) (by decide +kernel) (t := -5137 / 730500) (u := ((-7032169747 : ℤ) : ℝ) * 1e-12)
    (by norm_num [abs_le]) (by norm_num [abs_le])
  have e2 := pval_lip1 (c := Data.venusB) (by decide +kernel) (t := -5137 / 730500) (u := ((-7032169747 : ℤ) : ℝ) * 1e-12)
    (by norm_num [abs_le]) (by norm_num [abs_le])
  have e3 := pval_lip1 (c := Data.venusR) (by decide +kernel) (t := -5137 / 730500) (u := ((-7032169747 : ℤ) : ℝ) * 1e-12)
    (by norm_num [abs_le]) (by norm_num [abs_le])
  have hL := ptNearN_spec vY_vL rows_venusL (n := 0) (m := 5 * 10 ^ 9) (by decide +kernel) (by decide +kernel)
  have hB := ptNearN_spec vY_vB rows_venusB (n := 0) (m := 10 ^ 10) (by decide +kernel) (by decide +kernel)
  have hR := ptNearN_spec vY_vR rows_venusR (n := 0) (m := 2 * 10 ^ 11) (by decide +kernel) (by decide +kernel)
  have hd := head_venus (((-7032169747 : ℤ) : ℝ) * 1e-12)
  rw [eT]
  simp only [poisson_eq_pval]
  have d : |(-5137 / 730500 : ℝ) - ((-7032169747 : ℤ) : ℝ) * 1e-12| ≤ 2.6e-13 := by norm_num [abs_le]
  have e1 := e1.trans (mul_le_mul_of_nonneg_left d (by norm_num))
  have e2 := e2.trans (mul_le_mul_of_nonneg_left d (by norm_num))
  have e3 := e3.trans (mul_le_mul_of_nonneg_left d (by norm_num))
  generalize pval Data.venusL (-5137 / 730500) = l at *
  generalize pval Data.venusB (-5137 / 730500) = b at *
  generalize pval Data.venusR (-5137 / 730500) = r at *
  generalize pval Data.venusL (((-7032169747 : ℤ) : ℝ) * 1e-12) = l' at *
  generalize pval Data.venusB (((-7032169747 : ℤ) : ℝ) * 1e-12) = b' at *
  generalize pval Data.venusR (((-7032169747 : ℤ) : ℝ) * 1e-12) = r' at *
  generalize pval (tail1 (tail0 Data.venusL)) (((-7032169747 : ℤ) : ℝ) * 1e-12) = q at *
  have p1 := pi_gt_d20
  have p2 := pi_lt_d20
  unfold deg
  simp only [abs_le] at *
  push_cast at *
  norm_num at *
  refine ⟨⟨?_, ?_⟩, ⟨?_, ?_⟩, ⟨?_, ?_⟩⟩ <;> linarith [e1.1, e1.2, e2.1, e2.2, e3.1, e3.2, hL.1, hL.2, hB.1, hB.2, hR.1, hR.2]

end Verif
