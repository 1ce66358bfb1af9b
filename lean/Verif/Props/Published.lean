import Verif.Lemmas.MoonPublished
import Verif.Props.FloatLunar
import Verif.Props.FloatMisc
import Verif.Spec.Examples

/-!
# C91: published positions of the Moon, published nutation and obliquity

The examples are those of J. Meeus, Astronomical Algorithms, second edition, chapters 22 and 47, and of the
web pages quoted in `tests/test_elp2000.py` and `tests/test_nutation.py`.  The values on the right are the
published decimals.
-/

namespace Verif
open Real

set_option exponentiation.threshold 500

theorem modpi2_deg (x : ℝ) (n : ℤ) (h0 : 0 ≤ x - 360 * n) (h1 : x - 360 * n < 360) : modpi2 (deg x) = deg (x - 360 * n) := by
  have p := Real.pi_pos
  rw [modpi2_congr (y := deg (x - 360 * n)) ⟨n, by unfold deg; ring⟩]
  refine modpi2_of_mem ?_ ?_
  · unfold deg; positivity
  · unfold deg; nlinarith

theorem deg_near {x y e : ℝ} (h : |x - y| ≤ e) : |deg x - deg y| ≤ deg e := by
  rw [show deg x - deg y = deg (x - y) by unfold deg; ring, abs_deg]
  exact deg_le.2 h

theorem arcsec_near {x y e : ℝ} (h : |x - y| ≤ e) : |arcsec x - arcsec y| ≤ arcsec e := by
  rw [show arcsec x - arcsec y = arcsec (x - y) by unfold arcsec; ring, abs_arcsec]
  exact arcsec_le.2 h

theorem jcent_of {jd T : ℝ} (h : jd = 2451545 + 36525 * T) : jcent jd = T := by
  rw [h]; unfold jcent; ring

/-! ### The Moon -/

theorem moon_1992_aux :
    |lunarLongitude 2448724.5 - nutationInLongitude 2448724.5 - deg 133.162655| ≤ deg 4.7e-7 ∧
    |lunarLatitude 2448724.5 - deg (-3.229126)| ≤ deg 4.7e-7 ∧ |lunarRadius 2448724.5 - 368409.7| ≤ 0.04 := by
  have eT : jcent 2448724.5 = -5641 / 73050 := jcent_of (by norm_num)
  refine ⟨?_, ?_, ?_⟩
  · have h := lon_at moonA_ok moonA_lon
    rw [lunarLongitude_eq, eT, add_sub_cancel_right, polyR_kL1, modpi2_deg _ (-103) (by unfold Mean.moonLongitude; norm_num)
      (by unfold Mean.moonLongitude; norm_num), deg_eq, ← deg_add]
    rw [polyR_kL1] at h
    refine deg_near ?_
    generalize lonSum (-5641 / 73050) + _ = z at *
    unfold Mean.moonLongitude
    rw [abs_le] at *
    norm_num at *
    constructor <;> linarith
  · have h := lat_at moonA_ok moonA_lat
    rw [lunarLatitude_eq, eT, deg_eq]
    refine deg_near ?_
    generalize latSum (-5641 / 73050) + _ = z at *
    rw [abs_le] at *
    norm_num at *
    constructor <;> linarith
  · have h := rad_at moonA_ok moonA_rad
    rw [lunarRadius_eq, eT]
    rw [abs_le] at *
    norm_num at *
    constructor <;> linarith

/-- C91: the Moon on 1992 April 12, 0h (Meeus, example 47.a): longitude from the mean equinox 133.162655°, latitude
-3.229126°, distance 368409.7 km.  The library gives all the digits. -/
theorem moon_1992 :
    |lunarLongitude 2448724.5 - nutationInLongitude 2448724.5 - deg 133.162655| ≤ deg 0.0000005 ∧
    |lunarLatitude 2448724.5 - deg (-3.229126)| ≤ deg 0.0000005 ∧ |lunarRadius 2448724.5 - 368409.7| ≤ 0.05 := by
  obtain ⟨a, b, c⟩ := moon_1992_aux
  exact ⟨a.trans (deg_le.2 (by norm_num)), b.trans (deg_le.2 (by norm_num)), c.trans (by norm_num)⟩

theorem moon_2013_aux :
    |lunarLongitude 2456466.5 - deg 264.8092609| ≤ deg 8e-8 ∧
    |lunarLatitude 2456466.5 - deg 3.2272014| ≤ deg 8e-8 ∧ |lunarRadius 2456466.5 - 357206| ≤ 0.4 := by
  have eT : jcent 2456466.5 = 3281 / 24350 := jcent_of (by norm_num)
  refine ⟨?_, ?_, ?_⟩
  · have h := lon_at moonB_ok moonB_lon
    have h2 := psi_at moonB_ok moonB_psi
    rw [lunarLongitude_eq, nutationInLongitude_eq, eT, polyR_kL1, modpi2_deg _ 180 (by unfold Mean.moonLongitude; norm_num)
      (by unfold Mean.moonLongitude; norm_num), deg_eq, deg_eq, ← deg_add, ← deg_add]
    rw [polyR_kL1] at h
    refine deg_near ?_
    generalize lonSum (3281 / 24350) + _ = z at *
    generalize nutPsi (3281 / 24350) = y at *
    unfold Mean.moonLongitude
    rw [abs_le] at *
    norm_num at *
    constructor <;> linarith
  · have h := lat_at moonB_ok moonB_lat
    rw [lunarLatitude_eq, eT, deg_eq]
    refine deg_near ?_
    generalize latSum (3281 / 24350) + _ = z at *
    rw [abs_le] at *
    norm_num at *
    constructor <;> linarith
  · have h := rad_at moonB_ok moonB_rad
    rw [lunarRadius_eq, eT]
    rw [abs_le] at *
    norm_num at *
    constructor <;> linarith

/-- C91: the Moon on 2013 June 23, 0h: apparent longitude 264.8092609°, latitude 3.2272014°, distance 357206 km, up to one
unit of the last digit. -/
theorem moon_2013 :
    |lunarLongitude 2456466.5 - deg 264.8092609| ≤ deg 0.0000001 ∧
    |lunarLatitude 2456466.5 - deg 3.2272014| ≤ deg 0.0000001 ∧ |lunarRadius 2456466.5 - 357206| ≤ 0.5 := by
  obtain ⟨a, b, c⟩ := moon_2013_aux
  exact ⟨a.trans (deg_le.2 (by norm_num)), b.trans (deg_le.2 (by norm_num)), c.trans (by norm_num)⟩

/-! ### Nutation and obliquity -/

theorem nutation_1987_aux :
    |nutationInLongitude 2446895.5 - arcsec (-3.788)| ≤ arcsec 4.9e-4 ∧
    |nutationInObliquity 2446895.5 - arcsec 9.443| ≤ arcsec 4.9e-4 ∧
    |obliquity 2446895.5 - arcsec (23 * 3600 + 26 * 60 + 27.407)| ≤ arcsec 4.9e-4 ∧
    |obliquityHi 2446895.5 - arcsec (23 * 3600 + 26 * 60 + 27.407)| ≤ arcsec 4.9e-4 := by
  have eT : jcent 2446895.5 = -9299 / 73050 := jcent_of (by norm_num)
  have eT' : centuries 2446895.5 = -9299 / 73050 := eT
  refine ⟨?_, ?_, ?_, ?_⟩
  · have h := psi_at nutA_ok nutA_psi
    rw [nutationInLongitude_eq, eT, dToR_sec]
    refine arcsec_near ?_
    rw [abs_le] at *
    norm_num at *
    constructor <;> linarith
  · have h := eps_at nutA_ok nutA_eps
    rw [nutationInObliquity_eq, eT, dToR_sec]
    refine arcsec_near ?_
    rw [abs_le] at *
    norm_num at *
    constructor <;> linarith
  · rw [obliquity_eq, eT']
    refine arcsec_near ?_
    unfold obl
    norm_num [abs_le]
  · rw [obliquityHi_eq, eT']
    refine arcsec_near ?_
    unfold oblHi
    norm_num [abs_le]

/-- C91: on 1987 April 10, 0h (Meeus, example 22.a), the nutation in longitude is -3.788", in obliquity 9.443"; the mean
obliquity by both formulas 23° 26' 27.407". -/
theorem nutation_1987 :
    |nutationInLongitude 2446895.5 - arcsec (-3.788)| ≤ arcsec 0.0005 ∧
    |nutationInObliquity 2446895.5 - arcsec 9.443| ≤ arcsec 0.0005 ∧
    |obliquity 2446895.5 - arcsec (23 * 3600 + 26 * 60 + 27.407)| ≤ arcsec 0.0005 ∧
    |obliquityHi 2446895.5 - arcsec (23 * 3600 + 26 * 60 + 27.407)| ≤ arcsec 0.0005 := by
  obtain ⟨a, b, c, d⟩ := nutation_1987_aux
  have : arcsec 4.9e-4 ≤ arcsec 0.0005 := arcsec_le.2 (by norm_num)
  exact ⟨a.trans this, b.trans this, c.trans this, d.trans this⟩

theorem nutation_2013_aux : |nutationInLongitude 2456479.5 - arcsec 12.675| ≤ arcsec 4.9e-4 := by
  have eT : jcent 2456479.5 = 9869 / 73050 := jcent_of (by norm_num)
  have h := psi_at nutB_ok nutB_psi
  rw [nutationInLongitude_eq, eT, dToR_sec]
  refine arcsec_near ?_
  rw [abs_le] at *
  norm_num at *
  constructor <;> linarith

/-- C91: on 2013 July 6, 0h, the nutation in longitude is 12.675". -/
theorem nutation_2013 : |nutationInLongitude 2456479.5 - arcsec 12.675| ≤ arcsec 0.0005 :=
  nutation_2013_aux.trans (arcsec_le.2 (by norm_num))

/-! ### Mean elements -/

def nodeQ (T : ℚ) : ℚ := 125.0445479 - 1934.1362891 * T + 0.0020754 * T ^ 2 + T ^ 3 / 467441 + T ^ 4 / 60616000
def perigeeQ (T : ℚ) : ℚ := 83.3532465 + 4069.0137287 * T - 0.0103200 * T ^ 2 - T ^ 3 / 80053 + T ^ 4 / 18999000
def moonQ (T : ℚ) : ℚ := 218.3164477 + 481267.88123421 * T - 0.0015786 * T ^ 2 + T ^ 3 / 538841 - T ^ 4 / 65194000
def sunQ (T : ℚ) : ℚ := 180 + 100.4664567 + 36000.76982779 * T + 0.0003032028 * T ^ 2 + T ^ 3 / 49931000 -
  T ^ 4 / 153000000 - T ^ 5 / 200000000000
def sunPerigeeQ (T : ℚ) : ℚ := (1012395 + 6189.03 * (T + 1) + 1.63 * (T + 1) ^ 2 + 0.012 * (T + 1) ^ 3) / 3600

/-- Two angles in degrees agree up to `0.022` and whole turns. -/
def near360 (x v : ℚ) : Bool := decide (|x - 360 * (⌊x / 360⌋ : ℤ) - v| ≤ 0.022)

theorem near360_spec {x v : ℚ} (h : near360 x v = true) : |modpi2 (deg x) - deg v| ≤ deg 0.022 := by
  have h := of_decide_eq_true h
  have a := Int.floor_le (x / 360)
  have b := Int.lt_floor_add_one (x / 360)
  generalize ⌊x / 360⌋ = n at *
  have a' : 0 ≤ x - 360 * n := by linarith
  have b' : x - 360 * n < 360 := by linarith
  rw [modpi2_deg x n (by exact_mod_cast a') (by exact_mod_cast b')]
  refine deg_near ?_
  have : (|x - 360 * n - v| : ℝ) ≤ ((0.022 : ℚ) : ℝ) := by exact_mod_cast h
  exact this.trans (by norm_num)

def schOK (r : ℚ × ℚ × ℚ × ℚ × ℚ × ℚ) : Bool :=
  let T := (r.1 - 2451545) / 36525
  near360 (nodeQ T) r.2.1 && near360 (perigeeQ T) r.2.2.1 && near360 (moonQ T) r.2.2.2.1 &&
    near360 (sunQ T) r.2.2.2.2.1 && near360 (sunPerigeeQ T) r.2.2.2.2.2

theorem schureman_ok : ∀ r ∈ Spec.schureman, schOK r = true := by decide +kernel

/-- C91: node, perigee and mean longitude of the Moon, mean longitude and perigee of the Sun differ by at most 0.022° from
every entry of Schureman's table. -/
theorem mean_elements_schureman : ∀ r ∈ Spec.schureman, ∀ jd node perigee moon sun sunPerigee : ℚ,
    r = (jd, node, perigee, moon, sun, sunPerigee) →
    |lunarNode jd - deg node| ≤ deg 0.022 ∧ |lunarPerigee jd - deg perigee| ≤ deg 0.022 ∧
    |lunarMeanLongitude jd - deg moon| ≤ deg 0.022 ∧ |sunMeanLongitude jd - deg sun| ≤ deg 0.022 ∧
    |sunMeanLongitudePerigee jd - deg sunPerigee| ≤ deg 0.022 := by
  rintro r hr jd node perigee moon sun sunPerigee rfl
  have h := schureman_ok _ hr
  unfold schOK at h
  simp only [Bool.and_eq_true] at h
  obtain ⟨⟨⟨⟨h1, h2⟩, h3⟩, h4⟩, h5⟩ := h
  have h1 := near360_spec h1
  have h2 := near360_spec h2
  have h3 := near360_spec h3
  have h4 := near360_spec h4
  have h5 := near360_spec h5
  have eT : ((((jd - 2451545) / 36525 : ℚ)) : ℝ) = jcent jd := by unfold jcent; push_cast; ring
  refine ⟨?_, ?_, ?_, ?_, ?_⟩
  · convert h1 using 3
    unfold lunarNode nodeQ
    push_cast [eT]
    rw [← eT]
    simp only [polyR, ko, horner, dToR, deg]
    congr 1
    push_cast
    ring
  · convert h2 using 3
    unfold lunarPerigee perigeeQ
    rw [← eT]
    simp only [polyR, horner, dToR, deg]
    congr 1
    push_cast
    ring
  · convert h3 using 3
    unfold lunarMeanLongitude moonQ
    rw [← eT]
    simp only [polyR, kL1, horner, dToR, deg]
    congr 1
    push_cast
    ring
  · convert h4 using 3
    unfold sunMeanLongitude sunQ
    simp only
    rw [← eT]
    simp only [polyR, horner, dToR, deg]
    congr 1
    push_cast
    ring
  · convert h5 using 3
    unfold sunMeanLongitudePerigee sunPerigeeQ
    simp only
    rw [← eT]
    simp only [polyR, horner, dToR, deg]
    congr 1
    push_cast
    ring

/-! ### In binary64 -/

theorem TurnNear.trans' {X x v e a b : ℝ} (h : TurnNear X x e) (h2 : |x - v| ≤ a) (hb : e + a ≤ b) : TurnNear X v b := by
  obtain ⟨k, hk⟩ := h
  refine ⟨k, ?_⟩
  rw [show X - (v + k * (2 * π)) = (X - (x + k * (2 * π))) + (x - v) by ring]
  exact (abs_add_le _ _).trans ((add_le_add hk h2).trans hb)

theorem near_pub {X x v e a b : ℝ} (h : |X - x| ≤ e) (h2 : |x - v| ≤ a) (hb : e + a ≤ b) : |X - v| ≤ b := by
  rw [show X - v = (X - x) + (x - v) by ring]
  exact (abs_add_le _ _).trans ((add_le_add h h2).trans hb)

theorem deg_slack {e a b : ℝ} (he : 0 ≤ e) (h : e / 0.0174 + a ≤ b) : e + deg a ≤ deg b := by
  have p := Real.pi_gt_d4
  have : 0.0174 ≤ π / 180 := by norm_num at p ⊢; linarith
  have : e ≤ deg (e / 0.0174) := by
    unfold deg
    calc e = e / 0.0174 * 0.0174 := by norm_num
      _ ≤ _ := by gcongr
  have h2 := deg_le.2 h
  rw [deg_add] at h2
  linarith

theorem arcsec_slack {e : ℝ} (h : e ≤ 7e-13) : e + arcsec 4.9e-4 ≤ arcsec 0.0005 := by
  have p := Real.pi_gt_three
  unfold arcsec
  norm_num at h ⊢
  linarith

/-- C91: in binary64 the Moon of 1992 April 12 still has all the digits of the example; whole turns of the longitude are
left open. -/
theorem moon_1992_float {fl : ℚ → ℚ} (hf : FloatLike fl) {lib : NumLib} {D : ℕ} (hl : lib.Good fl D) :
    ∃ L B R : ℚ, lunarDimension3F fl lib 2448724.5 = (L, B, R) ∧
      TurnNear (L - nutationInLongitudeF fl lib 2448724.5) (deg 133.162655) (deg 0.0000005) ∧
      |(B : ℝ) - deg (-3.229126)| ≤ deg 0.0000005 ∧ |(R : ℝ) - 368409.7| ≤ 0.05 := by
  have c20 : |centuries ((2448724.5 : ℚ) : ℝ)| ≤ 20 := by unfold centuries; norm_num [abs_le]
  have c6 : |millennia ((2448724.5 : ℚ) : ℝ)| ≤ 6 := by unfold millennia; norm_num [abs_le]
  have e : ((2448724.5 : ℚ) : ℝ) = 2448724.5 := by norm_num
  obtain ⟨L, B, R, h, ⟨k, h1⟩, h2, h3⟩ := lunar_float hf hl 2448724.5 c20
  have n := (nutation_float hf hl 2448724.5 c6).1
  rw [e] at h1 h2 h3 n
  obtain ⟨a, b, c⟩ := moon_1992_aux
  refine ⟨L, B, R, h, ?_, near_pub h2 b (deg_slack (by norm_num) (by norm_num)), near_pub h3 c (by norm_num)⟩
  refine TurnNear.trans' (e := 2.71e-10) ⟨k, ?_⟩ a (deg_slack (by norm_num) (by norm_num))
  rw [abs_le] at *
  norm_num at *
  constructor <;> linarith

theorem moon_2013_float {fl : ℚ → ℚ} (hf : FloatLike fl) {lib : NumLib} {D : ℕ} (hl : lib.Good fl D) :
    ∃ L B R : ℚ, lunarDimension3F fl lib 2456466.5 = (L, B, R) ∧
      TurnNear L (deg 264.8092609) (deg 0.0000001) ∧
      |(B : ℝ) - deg 3.2272014| ≤ deg 0.0000001 ∧ |(R : ℝ) - 357206| ≤ 0.5 := by
  have c20 : |centuries ((2456466.5 : ℚ) : ℝ)| ≤ 20 := by unfold centuries; norm_num [abs_le]
  have e : ((2456466.5 : ℚ) : ℝ) = 2456466.5 := by norm_num
  obtain ⟨L, B, R, h, h1, h2, h3⟩ := lunar_float hf hl 2456466.5 c20
  rw [e] at h1 h2 h3
  obtain ⟨a, b, c⟩ := moon_2013_aux
  exact ⟨L, B, R, h, h1.trans' a (deg_slack (by norm_num) (by norm_num)),
    near_pub h2 b (deg_slack (by norm_num) (by norm_num)), near_pub h3 c (by norm_num)⟩

/-- C91: in binary64 nutation and obliquity still have all the digits of the examples. -/
theorem nutation_published_float {fl : ℚ → ℚ} (hf : FloatLike fl) {lib : NumLib} {D : ℕ} (hl : lib.Good fl D) :
    |(nutationInLongitudeF fl lib 2446895.5 : ℝ) - arcsec (-3.788)| ≤ arcsec 0.0005 ∧
    |(nutationInObliquityF fl lib 2446895.5 : ℝ) - arcsec 9.443| ≤ arcsec 0.0005 ∧
    |(obliquityF fl 2446895.5 : ℝ) - arcsec (23 * 3600 + 26 * 60 + 27.407)| ≤ arcsec 0.0005 ∧
    |(obliquityHiF fl 2446895.5 : ℝ) - arcsec (23 * 3600 + 26 * 60 + 27.407)| ≤ arcsec 0.0005 ∧
    |(nutationInLongitudeF fl lib 2456479.5 : ℝ) - arcsec 12.675| ≤ arcsec 0.0005 := by
  have a6 : |millennia ((2446895.5 : ℚ) : ℝ)| ≤ 6 := by unfold millennia; norm_num [abs_le]
  have a60 : |centuries ((2446895.5 : ℚ) : ℝ)| ≤ 60 := by unfold centuries; norm_num [abs_le]
  have b6 : |millennia ((2456479.5 : ℚ) : ℝ)| ≤ 6 := by unfold millennia; norm_num [abs_le]
  have e : ((2446895.5 : ℚ) : ℝ) = 2446895.5 := by norm_num
  have e' : ((2456479.5 : ℚ) : ℝ) = 2456479.5 := by norm_num
  obtain ⟨h1, h2⟩ := nutation_float hf hl 2446895.5 a6
  obtain ⟨h3, -⟩ := nutation_float hf hl 2456479.5 b6
  obtain ⟨o1, o2⟩ := obliquity_float hf 2446895.5
  have o1 := o1 a60
  have o2 := o2 (a60.trans (by norm_num))
  rw [← obliquity_eq] at o1
  rw [← obliquityHi_eq] at o2
  rw [e] at h1 h2 o1 o2
  rw [e'] at h3
  obtain ⟨a, b, c, d⟩ := nutation_1987_aux
  exact ⟨near_pub h1 a (arcsec_slack le_rfl), near_pub h2 b (arcsec_slack le_rfl),
    near_pub o1 c (arcsec_slack (by norm_num)), near_pub o2 d (arcsec_slack (by norm_num)),
    near_pub h3 nutation_2013_aux (arcsec_slack le_rfl)⟩

end Verif
