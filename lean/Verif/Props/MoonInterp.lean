import Verif.Lemmas.MoonDay
import Verif.Props.CronusPlaces
import Verif.Props.Published
import Verif.Props.RiseSet

/-!
# C103: the Moon is not interpolated accurately from three daily places

`riseset.py` 28-29: "This approach is inadequate for the Moon, which moves too fast to be accurately interpolated from
three daily positions."  So it is, by a day on which the declination found by interpolation is off by two minutes of arc;
the same interpolation of the Sun is never off by more than 2.1 seconds (C102).
-/

namespace Verif
open Real

/-- The declination of the Moon in the table of `cronus`. -/
theorem place_moon_dec {jd T l b e : ℝ} (hT : jcent jd = T)
    (hl : Mean.moonLongitude T + (lonSum T + (3958 * sin (polyR kA1 T) + 1962 * sin (polyR kL1 T - polyR kF T) +
      318 * sin (polyR kA2 T))) / 1000000 + nutPsi T / 3600 + nutPsi T / 3600 = l)
    (hb : (latSum T + (-2235 * sin (polyR kL1 T) + 382 * sin (polyR kA3 T) + 175 * sin (polyR kA1 T - polyR kF T) +
      175 * sin (polyR kA1 T + polyR kF T) + 127 * sin (polyR kL1 T - polyR kM1 T) -
      115 * sin (polyR kL1 T + polyR kM1 T))) / 1000000 = b)
    (he : (84381.448 - 46.8150 * T - 0.00059 * T ^ 2 + 0.001813 * T ^ 3) / 3600 + nutEps T / 3600 = e) :
    ∃ ra s, place jd "Moon" = .ok (ra, arcsin (sin (deg b) * cos (deg e) + cos (deg b) * sin (deg e) * sin (deg l)), s) := by
  have e1 : lunarLatitude jd = deg b := by rw [lunarLatitude_eq, hT, deg_eq, hb]
  have e2 : trueObliquity jd = deg e := by
    have c : centuries jd = T := hT
    unfold trueObliquity
    rw [c, nutationInObliquity_eq, hT, deg_eq, ← he, deg_add]
    unfold arcsec deg
    ring
  rw [polyR_kL1] at hl
  have e3 : sin (lunarLongitude jd + nutationInLongitude jd) = sin (deg l) := by
    rw [lunarLongitude_eq, nutationInLongitude_eq, hT, polyR_kL1, deg_eq, deg_eq, ← hl, deg_add, deg_add, deg_add]
    obtain ⟨k, hk⟩ := (modpi2_spec (deg (Mean.moonLongitude T))).2.2
    rw [hk]
    refine Eq.trans ?_ (sin_add_int_mul_two_pi _ k)
    congr 1
    ring
  refine ⟨(moonPlace jd (nutationInLongitude jd) (trueObliquity jd)).1, (moonPlace jd (nutationInLongitude jd) (trueObliquity jd)).2.2, ?_⟩
  rw [← e1, ← e2, ← e3]
  unfold place
  rw [nutationPair_eq]
  rfl

theorem mul_near_one {x y a b p q : ℝ} (hx : |x - a| ≤ p) (hy : |y - b| ≤ q) (h1 : |x| ≤ 1) (h2 : |b| ≤ 1) :
    |x * y - a * b| ≤ p + q := by
  rw [show x * y - a * b = x * (y - b) + (x - a) * b by ring]
  refine (abs_add_le _ _).trans ?_
  rw [abs_mul, abs_mul]
  have p1 := mul_le_mul_of_nonneg_right h1 (abs_nonneg (y - b))
  have p2 := mul_le_mul_of_nonneg_left h2 (abs_nonneg (x - a))
  linarith

theorem dec_between {l b e d1 d2 sl sb cb se ce s1 s2 : ℝ} (hl : |sin l - sl| ≤ 5e-9) (hb : |sin b - sb| ≤ 5e-9)
    (hc : |cos b - cb| ≤ 5e-9) (hs : |sin e - se| ≤ 5e-9) (he : |cos e - ce| ≤ 5e-9) (h1 : |sin d1 - s1| ≤ 5e-9)
    (h2 : |sin d2 - s2| ≤ 5e-9) (b1 : |sl| ≤ 1) (b2 : |se| ≤ 1) (b3 : |ce| ≤ 1)
    (g1 : s1 + 4e-8 ≤ sb * ce + cb * se * sl) (g2 : sb * ce + cb * se * sl + 4e-8 ≤ s2)
    (r1 : -(π / 2) ≤ d1) (r2 : d2 ≤ π / 2) (r3 : d1 ≤ π / 2) (r4 : -(π / 2) ≤ d2) :
    d1 ≤ arcsin (sin b * cos e + cos b * sin e * sin l) ∧ arcsin (sin b * cos e + cos b * sin e * sin l) ≤ d2 := by
  have k1 := mul_near_one hb he (abs_sin_le_one b) b3
  have k2 := mul_near_one hc hs (abs_cos_le_one b) b2
  have k3 := mul_near_one k2 hl (by rw [abs_mul]; exact mul_le_one₀ (abs_cos_le_one b) (abs_nonneg _) (abs_sin_le_one e)) b1
  generalize sin b * cos e = x at *
  generalize cos b * sin e * sin l = y at *
  generalize sb * ce = u at *
  generalize cb * se * sl = v at *
  rw [abs_le] at k1 k3 h1 h2
  rw [← arcsin_sin r1 r3, ← arcsin_sin r4 r2]
  norm_num at *
  constructor <;> refine arcsin_le_arcsin ?_ <;> linarith


theorem moonU_dec : ∃ ra d s, place 2453381.5 "Moon" = .ok (ra, d, s) ∧ |d - deg (-254593161/10000000)| ≤ deg 3e-6 := by
  have eT : jcent 2453381.5 = 3673/73050 := jcent_of (by norm_num)
  have h1 := lon_at moonU_ok moonU_lon
  have h2 := lat_at moonU_ok moonU_lat
  have h3 := psi_at moonU_ok moonU_psi
  have h4 := eps_at moonU_ok moonU_eps
  obtain ⟨ra, s, h⟩ := place_moon_dec eT rfl rfl rfl
  refine ⟨ra, _, s, h, ?_⟩
  clear h eT
  generalize latSum (3673/73050) + _ = y at *
  generalize lonSum (3673/73050) + _ = x at *
  generalize nutPsi (3673/73050) = p at *
  generalize nutEps (3673/73050) = q at *
  have k1 : |(Mean.moonLongitude (3673/73050) + x / 1000000 + p / 3600 + p / 3600) * 10 ^ 12 - (24417994977309750 : ℤ)| ≤ 50000 := by
    unfold Mean.moonLongitude
    rw [abs_le] at *
    push_cast at *
    norm_num at *
    constructor <;> linarith
  have k2 : |(y / 1000000) * 10 ^ 12 - (-4999381588000 : ℤ)| ≤ 50000 := by
    rw [abs_le] at *
    push_cast at *
    norm_num at *
    constructor <;> linarith
  have k3 : |((84381.448 - 46.8150 * (3673/73050 : ℝ) - 0.00059 * (3673/73050) ^ 2 + 0.001813 * (3673/73050) ^ 3) / 3600 + q / 3600) * 10 ^ 12 -
      (23440744360766 : ℤ)| ≤ 50000 := by
    rw [abs_le] at *
    push_cast at *
    norm_num at *
    constructor <;> linarith
  have m1 : |(-25459319100000 / 10 ^ 12 : ℝ) * 10 ^ 12 - (-25459319100000 : ℤ)| ≤ 50000 := by norm_num
  have m2 : |(-25459313100000 / 10 ^ 12 : ℝ) * 10 ^ 12 - (-25459313100000 : ℤ)| ≤ 50000 := by norm_num
  have t : ((1000 : ℕ) + 3000 : ℝ) / 10 ^ 12 + 1.8e-14 * 50000 ≤ 5e-9 := by norm_num
  have g := dec_between ((sinDeg_near k1 moonU_sl).trans t) ((sinDeg_near k2 moonU_sb).trans t) ((cosDeg_near k2 moonU_cb).trans t)
    ((sinDeg_near k3 moonU_se).trans t) ((cosDeg_near k3 moonU_ce).trans t) ((sinDeg_near m1 moonU_d1).trans t)
    ((sinDeg_near m2 moonU_d2).trans t) (by norm_num [abs_le]) (by norm_num [abs_le]) (by norm_num [abs_le])
    (by norm_num) (by norm_num) (by unfold deg; linarith [pi_pos]) (by unfold deg; linarith [pi_pos])
    (by unfold deg; linarith [pi_pos]) (by unfold deg; linarith [pi_pos])
  generalize arcsin _ = z at *
  clear k1 k2 k3 m1 m2 h1 h2 h3 h4
  have p1 := pi_pos
  unfold deg at g ⊢
  rw [abs_le]
  norm_num at g ⊢
  constructor <;> linarith [g.1, g.2]

theorem moonV_dec : ∃ ra d s, place 2453382.5 "Moon" = .ok (ra, d, s) ∧ |d - deg (-214594245/10000000)| ≤ deg 3e-6 := by
  have eT : jcent 2453382.5 = 49/974 := jcent_of (by norm_num)
  have h1 := lon_at moonV_ok moonV_lon
  have h2 := lat_at moonV_ok moonV_lat
  have h3 := psi_at moonV_ok moonV_psi
  have h4 := eps_at moonV_ok moonV_eps
  obtain ⟨ra, s, h⟩ := place_moon_dec eT rfl rfl rfl
  refine ⟨ra, _, s, h, ?_⟩
  clear h eT
  generalize latSum (49/974) + _ = y at *
  generalize lonSum (49/974) + _ = x at *
  generalize nutPsi (49/974) = p at *
  generalize nutEps (49/974) = q at *
  have k1 : |(Mean.moonLongitude (49/974) + x / 1000000 + p / 3600 + p / 3600) * 10 ^ 12 - (24433262541057877 : ℤ)| ≤ 50000 := by
    unfold Mean.moonLongitude
    rw [abs_le] at *
    push_cast at *
    norm_num at *
    constructor <;> linarith
  have k2 : |(y / 1000000) * 10 ^ 12 - (-4825706325000 : ℤ)| ≤ 50000 := by
    rw [abs_le] at *
    push_cast at *
    norm_num at *
    constructor <;> linarith
  have k3 : |((84381.448 - 46.8150 * (49/974 : ℝ) - 0.00059 * (49/974) ^ 2 + 0.001813 * (49/974) ^ 3) / 3600 + q / 3600) * 10 ^ 12 -
      (23440765948037 : ℤ)| ≤ 50000 := by
    rw [abs_le] at *
    push_cast at *
    norm_num at *
    constructor <;> linarith
  have m1 : |(-21459427500000 / 10 ^ 12 : ℝ) * 10 ^ 12 - (-21459427500000 : ℤ)| ≤ 50000 := by norm_num
  have m2 : |(-21459421500000 / 10 ^ 12 : ℝ) * 10 ^ 12 - (-21459421500000 : ℤ)| ≤ 50000 := by norm_num
  have t : ((1000 : ℕ) + 3000 : ℝ) / 10 ^ 12 + 1.8e-14 * 50000 ≤ 5e-9 := by norm_num
  have g := dec_between ((sinDeg_near k1 moonV_sl).trans t) ((sinDeg_near k2 moonV_sb).trans t) ((cosDeg_near k2 moonV_cb).trans t)
    ((sinDeg_near k3 moonV_se).trans t) ((cosDeg_near k3 moonV_ce).trans t) ((sinDeg_near m1 moonV_d1).trans t)
    ((sinDeg_near m2 moonV_d2).trans t) (by norm_num [abs_le]) (by norm_num [abs_le]) (by norm_num [abs_le])
    (by norm_num) (by norm_num) (by unfold deg; linarith [pi_pos]) (by unfold deg; linarith [pi_pos])
    (by unfold deg; linarith [pi_pos]) (by unfold deg; linarith [pi_pos])
  generalize arcsin _ = z at *
  clear k1 k2 k3 m1 m2 h1 h2 h3 h4
  have p1 := pi_pos
  unfold deg at g ⊢
  rw [abs_le]
  norm_num at g ⊢
  constructor <;> linarith [g.1, g.2]

theorem moonW_dec : ∃ ra d s, place 2453383.5 "Moon" = .ok (ra, d, s) ∧ |d - deg (-161351591/10000000)| ≤ deg 3e-6 := by
  have eT : jcent 2453383.5 = 3677/73050 := jcent_of (by norm_num)
  have h1 := lon_at moonW_ok moonW_lon
  have h2 := lat_at moonW_ok moonW_lat
  have h3 := psi_at moonW_ok moonW_psi
  have h4 := eps_at moonW_ok moonW_eps
  obtain ⟨ra, s, h⟩ := place_moon_dec eT rfl rfl rfl
  refine ⟨ra, _, s, h, ?_⟩
  clear h eT
  generalize latSum (3677/73050) + _ = y at *
  generalize lonSum (3677/73050) + _ = x at *
  generalize nutPsi (3677/73050) = p at *
  generalize nutEps (3677/73050) = q at *
  have k1 : |(Mean.moonLongitude (3677/73050) + x / 1000000 + p / 3600 + p / 3600) * 10 ^ 12 - (24448242519288390 : ℤ)| ≤ 50000 := by
    unfold Mean.moonLongitude
    rw [abs_le] at *
    push_cast at *
    norm_num at *
    constructor <;> linarith
  have k2 : |(y / 1000000) * 10 ^ 12 - (-4321029446000 : ℤ)| ≤ 50000 := by
    rw [abs_le] at *
    push_cast at *
    norm_num at *
    constructor <;> linarith
  have k3 : |((84381.448 - 46.8150 * (3677/73050 : ℝ) - 0.00059 * (3677/73050) ^ 2 + 0.001813 * (3677/73050) ^ 3) / 3600 + q / 3600) * 10 ^ 12 -
      (23440788667113 : ℤ)| ≤ 50000 := by
    rw [abs_le] at *
    push_cast at *
    norm_num at *
    constructor <;> linarith
  have m1 : |(-16135162100000 / 10 ^ 12 : ℝ) * 10 ^ 12 - (-16135162100000 : ℤ)| ≤ 50000 := by norm_num
  have m2 : |(-16135156100000 / 10 ^ 12 : ℝ) * 10 ^ 12 - (-16135156100000 : ℤ)| ≤ 50000 := by norm_num
  have t : ((1000 : ℕ) + 3000 : ℝ) / 10 ^ 12 + 1.8e-14 * 50000 ≤ 5e-9 := by norm_num
  have g := dec_between ((sinDeg_near k1 moonW_sl).trans t) ((sinDeg_near k2 moonW_sb).trans t) ((cosDeg_near k2 moonW_cb).trans t)
    ((sinDeg_near k3 moonW_se).trans t) ((cosDeg_near k3 moonW_ce).trans t) ((sinDeg_near m1 moonW_d1).trans t)
    ((sinDeg_near m2 moonW_d2).trans t) (by norm_num [abs_le]) (by norm_num [abs_le]) (by norm_num [abs_le])
    (by norm_num) (by norm_num) (by unfold deg; linarith [pi_pos]) (by unfold deg; linarith [pi_pos])
    (by unfold deg; linarith [pi_pos]) (by unfold deg; linarith [pi_pos])
  generalize arcsin _ = z at *
  clear k1 k2 k3 m1 m2 h1 h2 h3 h4
  have p1 := pi_pos
  unfold deg at g ⊢
  rw [abs_le]
  norm_num at g ⊢
  constructor <;> linarith [g.1, g.2]

theorem moonX_dec : ∃ ra d s, place 2453383.0 "Moon" = .ok (ra, d, s) ∧ |d - deg (-189282154/10000000)| ≤ deg 3e-6 := by
  have eT : jcent 2453383.0 = 1838/36525 := jcent_of (by norm_num)
  have h1 := lon_at moonX_ok moonX_lon
  have h2 := lat_at moonX_ok moonX_lat
  have h3 := psi_at moonX_ok moonX_psi
  have h4 := eps_at moonX_ok moonX_eps
  obtain ⟨ra, s, h⟩ := place_moon_dec eT rfl rfl rfl
  refine ⟨ra, _, s, h, ?_⟩
  clear h eT
  generalize latSum (1838/36525) + _ = y at *
  generalize lonSum (1838/36525) + _ = x at *
  generalize nutPsi (1838/36525) = p at *
  generalize nutEps (1838/36525) = q at *
  have k1 : |(Mean.moonLongitude (1838/36525) + x / 1000000 + p / 3600 + p / 3600) * 10 ^ 12 - (24440798243555106 : ℤ)| ≤ 50000 := by
    unfold Mean.moonLongitude
    rw [abs_le] at *
    push_cast at *
    norm_num at *
    constructor <;> linarith
  have k2 : |(y / 1000000) * 10 ^ 12 - (-4611635247000 : ℤ)| ≤ 50000 := by
    rw [abs_le] at *
    push_cast at *
    norm_num at *
    constructor <;> linarith
  have k3 : |((84381.448 - 46.8150 * (1838/36525 : ℝ) - 0.00059 * (1838/36525) ^ 2 + 0.001813 * (1838/36525) ^ 3) / 3600 + q / 3600) * 10 ^ 12 -
      (23440777490492 : ℤ)| ≤ 50000 := by
    rw [abs_le] at *
    push_cast at *
    norm_num at *
    constructor <;> linarith
  have m1 : |(-18928218400000 / 10 ^ 12 : ℝ) * 10 ^ 12 - (-18928218400000 : ℤ)| ≤ 50000 := by norm_num
  have m2 : |(-18928212400000 / 10 ^ 12 : ℝ) * 10 ^ 12 - (-18928212400000 : ℤ)| ≤ 50000 := by norm_num
  have t : ((1000 : ℕ) + 3000 : ℝ) / 10 ^ 12 + 1.8e-14 * 50000 ≤ 5e-9 := by norm_num
  have g := dec_between ((sinDeg_near k1 moonX_sl).trans t) ((sinDeg_near k2 moonX_sb).trans t) ((cosDeg_near k2 moonX_cb).trans t)
    ((sinDeg_near k3 moonX_se).trans t) ((cosDeg_near k3 moonX_ce).trans t) ((sinDeg_near m1 moonX_d1).trans t)
    ((sinDeg_near m2 moonX_d2).trans t) (by norm_num [abs_le]) (by norm_num [abs_le]) (by norm_num [abs_le])
    (by norm_num) (by norm_num) (by unfold deg; linarith [pi_pos]) (by unfold deg; linarith [pi_pos])
    (by unfold deg; linarith [pi_pos]) (by unfold deg; linarith [pi_pos])
  generalize arcsin _ = z at *
  clear k1 k2 k3 m1 m2 h1 h2 h3 h4
  have p1 := pi_pos
  unfold deg at g ⊢
  rw [abs_le]
  norm_num at g ⊢
  constructor <;> linarith [g.1, g.2]

/-- C103: on 2005 January 12 the declination of the Moon interpolated halfway from the middle to the last of the three
daily places of the table of `cronus` is 124 seconds of arc off that of the table for this time. -/
theorem moon_interpolated_off : ∃ y d x : ℝ × ℝ × ℝ, ∃ q ra dec st,
    place (2453382.5 - 1) "Moon" = .ok (y.1, d.1, x.1) ∧ place 2453382.5 "Moon" = .ok (y.2.1, d.2.1, x.2.1) ∧
    place (2453382.5 + 1) "Moon" = .ok (y.2.2, d.2.2, x.2.2) ∧ interpolate3 (fun x => x) (1 / 2) d.1 d.2.1 d.2.2 = .ok q ∧
    place (2453382.5 + 1 / 2) "Moon" = .ok (ra, dec, st) ∧ arcsec 124 ≤ |q - dec| := by
  obtain ⟨y0, d0, x0, a0, b0⟩ := moonU_dec
  obtain ⟨y1, d1, x1, a1, b1⟩ := moonV_dec
  obtain ⟨y2, d2, x2, a2, b2⟩ := moonW_dec
  obtain ⟨ra, dec, st, a, b⟩ := moonX_dec
  refine ⟨(y0, y1, y2), (d0, d1, d2), (x0, x1, x2), _, ra, dec, st, ?_, a1, ?_, code_dec (d0, d1, d2) (by norm_num) (by norm_num), ?_, ?_⟩
  · norm_num at a0 ⊢; exact a0
  · norm_num at a2 ⊢; exact a2
  · norm_num at a ⊢; exact a
  · have p1 := pi_pos
    unfold parabola arcsec
    unfold deg at *
    rw [abs_le] at *
    rw [le_abs]
    norm_num at *
    right
    linarith [b0.1, b0.2, b1.1, b1.2, b2.1, b2.2, b.1, b.2]

end Verif
