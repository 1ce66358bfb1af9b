import Verif.Props.Coordinates
import Verif.Props.DeltaT
import Verif.Props.Elongation
import Verif.Props.EquinoxYear
import Verif.Props.Geocentric
import Verif.Props.Lunar
import Verif.Props.MoonMotion
import Verif.Props.Nutation
import Verif.Props.Planets
import Verif.Props.RiseSet
import Verif.Props.Synodic
import Verif.Props.Transit

/-! Concrete cases of the astronomical theorems: instants and directions which meet their hypotheses. -/

namespace Verif

open Spec Real

private theorem m2024 : |millennia 2460389.5| ≤ 1 := by unfold millennia; rw [abs_le]; norm_num

private theorem c2024 : |centuries 2460389.5| ≤ 1 := by unfold centuries; rw [abs_le]; norm_num

/-! ### C24, C28: angles -/

example : -π < diffAngle 6 0.2 ∧ diffAngle 6 0.2 ≤ π :=
  diff_angle_range 6 0.2 (by have := Real.pi_gt_three; rw [abs_lt]; constructor <;> norm_num <;> linarith)

/-! ### C32, C34: a day of 1977 -/

example : min 47.6049 47.6837 ≤ deltaTSeconds (fun x => x) 2443192.65 ∧
    deltaTSeconds (fun x => x) 2443192.65 ≤ max 47.6049 47.6837 := by
  have h : tbl[700]? = some ((2443175.5 : ℚ), (47.6049 : ℚ)) ∧ tbl[701]? = some ((2443203.5 : ℚ), (47.6837 : ℚ)) := by
    decide +kernel
  have := deltaT_between 2443192.65 (by norm_num) (by norm_num) 700 _ _ h.1 h.2 (by norm_num) (by norm_num)
  simpa only using this

example : dtToUt (fun x => x) 2443192.5 < dtToUt (fun x => x) 2443192.65 :=
  dt_to_ut_strictMono _ _ (by norm_num) (by norm_num) (by norm_num)

/-! ### C36: a direction south of the ecliptic -/

example : (equToEcl (eclToEqu 0 (-1) 0.4).1 (eclToEqu 0 (-1) 0.4).2 0.4).2 = -1 + 2 * π := by
  have hp := Real.pi_gt_three
  refine equ_to_ecl_south 0 (-1) 0.4 (by linarith) (by norm_num) ?_
  unfold eclToEqu
  simp only [sin_zero, mul_zero, add_zero, sin_neg, cos_neg]
  rw [Real.cos_arcsin]
  refine Real.sqrt_pos.mpr ?_
  have h1 := sin_sq_add_cos_sq 1
  have h2 : 0 < cos 1 := Real.cos_one_pos
  have h3 := Real.sin_sq_le_one 0.4
  have h4 := sin_sq_add_cos_sq (0.4 : ℝ)
  have h5 : cos 0.4 ^ 2 ≤ 1 := by nlinarith [sq_nonneg (sin (0.4 : ℝ))]
  nlinarith [sq_nonneg (sin 1), mul_pos h2 h2, mul_nonneg (sq_nonneg (sin 1)) (sub_nonneg.2 h5)]

/-! ### C41, C74: Venus and Mars, March 2024 -/

example : ∃ r s : ℝ, vsopDimension vsopDict [2460389.5] "Venus" "R" = .ok (.scalar r) ∧
    vsopDimension vsopDict [2460389.5] "Mars" "R" = .ok (.scalar s) ∧ 0 < r ∧ r < s :=
  planets_distance_order _ (m2024.trans (by norm_num)) 1 3 "Venus" "Mars" (by norm_num) (by decide) (by decide)

/-! ### C43, C44, C45, C72: nutation, obliquity and Moon, March 2024 -/

example : |nutationInLongitude 2460389.5| < arcsec 20 ∧ |nutationInObliquity 2460389.5| < arcsec 11 :=
  nutation_small _ (c2024.trans (by norm_num))

example : |obliquityHi 2460389.5 - obliquity 2460389.5| < arcsec 1 :=
  (obliquity_agree _).1 (c2024.trans (by norm_num))

example : 350000 < lunarRadius 2460389.5 ∧ lunarRadius 2460389.5 < 420000 ∧ |lunarLatitude 2460389.5| < deg 6.1 :=
  lunar_bounds _ (c2024.trans (by norm_num))

example : ∃ y, 2460389.5 ≤ y ∧ y ≤ 2460389.5 + 27.3 ∧ lunarLatitude y = 0 :=
  (moon_nodes _ (c2024.trans (by norm_num))).2.2

/-! ### C47, C48, C64: the seasons of 2024 -/

example : equinoxApprox seasonNames 3001 "spring" = .error (.Error "equinox" "year is out of range") :=
  equinox_approx_out_of_range _ 3001 _ (Or.inr (by norm_num))

example : equinoxApprox seasonNames 2024 "fall" = .error (.Error "equinox" ("unknown season =" ++ "fall")) :=
  equinox_approx_unknown_season 2024 "fall" (by norm_num) (by decide)

example : ∃ a x, equinoxApprox seasonNames 2024 "spring" = .ok a ∧ IsEvent 0 x ∧ |x - a| ≤ 5.1 ∧
    ∃ t, equinox a "spring" (1 / 86400) = .ok t ∧ |t - x| ≤ 0.056 * (1 / 86400) := by
  obtain ⟨a, x, h1, h2, h3, -, h4⟩ := equinox_of_approx 2024 (by norm_num) "spring" 0 (by simp [seasonAngle, deg])
  exact ⟨a, x, by exact_mod_cast h1, h2, h3, h4 _ (by norm_num)⟩

/-! ### C49, C73: Venus -/

example : ∃ r, geocentricLoop vsopDict 2460389.5 "Venus" (1 / 86400) 3 2460389.5 (-100) = .ok r ∧
    geocentricLoop vsopDict 2460389.5 "Venus" (1 / 86400) 20 2460389.5 (-100) = .ok r := by
  obtain ⟨c, hc⟩ := hasTables_of_known (show "Venus" ∈ knownPlanets by decide)
  exact geocentric_three_passes (by decide) (by decide) hc (m2024.trans (by norm_num)) (by norm_num) (by norm_num)

example : ∃ ra dec ra' dec', geocentricPlanet 2460389.5 "Venus" 0 0.4 (1 / 86400) = .ok (ra, dec) ∧
    sunPlace 2460389.5 0 0.4 = .ok (ra', dec') ∧ Within 48.8 ra dec ra' dec' := by
  obtain ⟨c, hc⟩ := hasTables_of_known (show "Venus" ∈ knownPlanets by decide)
  exact venus_elongation hc _ (m2024.trans (by norm_num)) _ _ _ (by norm_num) (by norm_num)

/-! ### C53: stars which never rise and never set -/

private theorem altitude_bounds (phi H d : ℝ) (h : 0 ≤ cos phi * cos d) :
    arcsin (-cos (phi + d)) ≤ altitude phi H d ∧ altitude phi H d ≤ arcsin (cos (phi - d)) := by
  have e : (toHorizon phi (direction H d)).z = sin phi * sin d + cos phi * cos d * cos H := by
    simp only [toHorizon, direction]; ring
  unfold altitude
  rw [e]
  constructor
  · refine Real.monotone_arcsin ?_
    rw [Real.cos_add]; nlinarith [Real.neg_one_le_cos H]
  · refine Real.monotone_arcsin ?_
    rw [Real.cos_sub]; nlinarith [Real.cos_le_one H]

/-- A star 57 degrees south, seen 57 degrees north, does not rise. -/
example : riseset 2451544.5 (5, 5, 5) (-1, -1, -1) 0 0.001 .rise 0 1 1 = .ok none := by
  have c : 0 < cos (1 : ℝ) := Real.cos_one_pos
  refine riseset_never_rises c (by rw [cos_neg]; exact c) (by positivity) fun H => ?_
  refine lt_of_le_of_lt (altitude_bounds 1 H (-1) (by rw [cos_neg]; positivity)).2 ?_
  rw [Real.arcsin_lt_zero]
  have hp := Real.pi_lt_d2
  exact Real.cos_neg_of_pi_div_two_lt_of_lt (by norm_num at hp ⊢; linarith) (by have := Real.pi_gt_three; linarith)

/-- A star 57 degrees north, seen from there, does not set. -/
example : riseset 2451544.5 (5, 5, 5) (1, 1, 1) 0 0.001 .set 0 1 1 = .ok none := by
  have c : 0 < cos (1 : ℝ) := Real.cos_one_pos
  refine riseset_circumpolar c c (by have := Real.pi_pos; linarith) fun H => ?_
  refine lt_of_lt_of_le ?_ (altitude_bounds 1 H 1 (by positivity)).1
  rw [Real.arcsin_pos, neg_pos]
  have hp := Real.pi_lt_d2
  exact Real.cos_neg_of_pi_div_two_lt_of_lt (by norm_num at hp ⊢; linarith) (by have := Real.pi_gt_three; linarith)

end Verif
